import Verif.Lemmas.VolGrow
import Verif.Props.C48_Volume
/-!
# C48: histories that take nothing away

Without `remove`, `rmtree` and `move` (and overwriting streams, truncating them, closing and opening are
allowed) no insertion into a directory tree raises.  So such histories act as on the specification up to a
call that is left out, or until the format cannot number the sectors or entries.
-/
namespace Verif.Volume
open Verif.Tree (op PlainCall)
open Verif.Rb (Name)
open Verif.PathTree hiding Name AStep

variable {up : Name → Name} {n : Nat}

/-- Calls other than `remove`, `rmtree` and `move`. -/
def Keeping : VCall → Prop
  | .path (.remove _) => False
  | .path (.rmtree _) => False
  | .path (.move _ _ _) => False
  | _ => True

instance : DecidablePred Keeping := fun c => by
  unfold Keeping
  split <;> infer_instance

theorem vstep_solid {v : Vol} {A : AVol} (V : VRel up n v A) (hs : Solid v) {c : VCall} (hp : Proper c) (hb : ¬ Bad up A c)
    (hk : Keeping c) {x : VOut × Vol} (h : vstep up v (vop c) = .ok x) : x.2.tree.broken = false ∧ Solid x.2 := by
  have same : ∀ {w : Vol}, w.tree = v.tree → w.tree.broken = false ∧ Solid w := by
    intro w hw
    obtain ⟨_, _, R⟩ := V.tree
    exact ⟨by rw [hw]; exact R.ok, hs.of_tree hw⟩
  cases c with
  | path c =>
    cases h1 : pathCall up v (op c) with
    | error e => simp only [vop, vstep, h1, bind, Except.bind] at h; cases h
    | ok y =>
      simp only [vop, vstep, h1, bind, Except.bind] at h
      cases h
      refine pathCall_solid V hs (fun p h => (hp p h).1) (fun h => hb (.inl h)) ?_ h1
      refine ⟨?_, ?_, ?_⟩ <;> (intros; rintro rfl; exact hk)
  | «open» p m =>
    cases h1 : openPath up v (text p) m.mode with
    | error e => simp only [vop, vstep, h1, bind, Except.bind] at h; cases h
    | ok y =>
      simp only [vop, vstep, h1, bind, Except.bind] at h
      cases h
      exact openPath_solid V hs (hp p (by simp [VCall.paths])).1 m.mode (by rw [mode_abs]; exact hb) (r := y.1) h1
  | io o =>
    simp only [vop, vstep, bind, Except.bind] at h
    split at h
    · cases h
    · cases h; exact same rfl
  | stamp e b =>
    simp only [vop, vstep, setStamp, bind, Except.bind] at h
    split at h
    · split at h
      · cases h
      · rename_i h2
        split at h2
        · cases h2
        · cases h2; cases h; exact same rfl
    · cases h; exact same rfl
  | flush =>
    simp only [vop, vstep, bind, Except.bind] at h
    split at h
    · cases h
    · cases h; exact same rfl
  | reopen =>
    obtain ⟨v', h1, h2, h3⟩ := reopen_solid V
    rw [show vop .reopen = .reopen from rfl, h1] at h
    cases h
    obtain ⟨_, _, R⟩ := h2.tree
    exact ⟨R.ok, h3 hs⟩

/-- `Follows`, where no insertion raises. -/
structure Follows' (up : Name → Name) (v0 : Vol) (A0 : AVol) (cs a b : List VCall) (os : List VOut) (v : Vol) (A : AVol) : Prop where
  split : cs = a ++ b
  run : vrun up v0 (a.map vop) = .ok (os, v)
  spec : VRun A0 a (os.map vans) A
  stop : ∀ c r, b = c :: r → Bad up A c ∨ vstep up v (vop c) = .error .outOfRange

theorem core' : ∀ (cs : List VCall) {v : Vol} {A : AVol}, VRel up n v A → Solid v → (∀ c ∈ cs, Proper c ∧ Keeping c) →
    ∃ a b os v' A', Follows' up v A cs a b os v' A' ∧ VRel up n v' A' ∧ Solid v'
  | [], v, A, V, hs, _ => ⟨[], [], [], v, A, ⟨rfl, rfl, .nil A, by simp⟩, V, hs⟩
  | c :: cs, v, A, V, hs, hp => by
    obtain ⟨hp1, hk⟩ := hp c (by simp)
    by_cases hb : Bad up A c
    · exact ⟨[], c :: cs, [], v, A, ⟨rfl, rfl, .nil A, by rintro c' r h; cases h; exact .inl hb⟩, V, hs⟩
    · rcases vstep_ok V hp1 hb with h | ⟨⟨o, v1⟩, h1, h⟩
      · exact ⟨[], c :: cs, [], v, A, ⟨rfl, rfl, .nil A, by rintro c' r h'; cases h'; exact .inr h⟩, V, hs⟩
      · obtain ⟨k1, k2⟩ := vstep_solid V hs hp1 hb hk h1
        rcases h with h | ⟨A1, h2, V1⟩
        · rw [k1] at h; cases h
        · obtain ⟨a, b, os, v', A', f, V'⟩ := core' cs V1 k2 (fun c' h' => hp c' (by simp [h']))
          refine ⟨c :: a, b, o :: os, v', A', ⟨by rw [f.split]; rfl, ?_, .cons h2 f.spec, f.stop⟩, V'⟩
          simp only [List.map_cons, vrun, h1, f.run, bind, Except.bind]

/-- **C48.** Every history without `remove`, `rmtree` and `move` on a new file acts as on a tree of paths whose
streams are byte arrays, up to the first call that is `Bad`, or that needs more than the format can number. -/
theorem C48_growing_history (up : Name → Name) (ss : Nat) (hss : ss = 512 ∨ ss = 4096) (f : Bytes) (cs : List VCall)
    (hp : ∀ c ∈ cs, Proper c ∧ Keeping c) :
    ∃ v0, newVol ss f = .ok v0 ∧ ∃ a b os v A, Follows' up v0 start cs a b os v A := by
  obtain ⟨v0, h1, V⟩ := newVol_ok up hss f
  obtain ⟨a, b, os, v, A, h2, _⟩ := core' cs V (newVol_solid hss h1) hp
  exact ⟨v0, h1, a, b, os, v, A, h2⟩

/-- A history that takes nothing away. -/
def growDemo : List VCall := [.path (.makedirs [nA, nB]), .open [nA, nB, nS] .w, .io (.write 6 [1, 2, 3]), .reopen,
  .open [nS] .w, .path (.create [nB] true), .stamp 4 (List.replicate 36 7), .flush, .open [nA, nB, nS] .rw,
  .io (.truncate 6 1), .path (.list [nA])]

theorem growDemo_ok : ∀ c ∈ growDemo, Proper c ∧ Keeping c := by
  have h : ∀ c ∈ growDemo, Keeping c ∧ ∀ p ∈ c.paths, ∀ m ∈ p, m ≠ [] ∧ '/' ∉ m ∧ Char.ofNat 0 ∉ m := by decide +kernel
  intro c hc
  obtain ⟨h1, h2⟩ := h c hc
  exact ⟨fun p hp => ⟨fun m hm => ⟨(h2 p hp m hm).1, (h2 p hp m hm).2.1⟩, fun m hm => (h2 p hp m hm).2.2⟩, h1⟩

/-- It comes to its end. -/
theorem growDemo_run : (show' growDemo [[nA, nB, nS], [nS]]).map (·.2) = .ok [some [1], some []] := by decide +kernel

end Verif.Volume
