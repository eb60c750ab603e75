import Verif.Lemmas.Remark
import Verif.Lemmas.Conform
import Verif.Props.C48_Volume
/-!
# C51: compound files of other applications

`Verif.Spec.CompoundFile` says when bytes are a compound file that stores a tree of paths, streams and
stamps.  It does not say where sectors are, in which order, how the trees are balanced, or which
directory records are used.  Any such file can be opened, has exactly that content, and can be edited.
-/
namespace Verif.Compound
open Verif.PathTree hiding Name
open Verif.Volume
open Verif.Rb (Name)
open Verif.Tree (RelK)

variable {up : Name → Name} {n : Nat}

/-- What the state of the program stands for is determined by it. -/
theorem vrel_unique {v : Vol} {A B : AVol} (V : VRel up n v A) (W : VRel up n v B) : A.tree = B.tree ∧ A.str = B.str ∧
    ∀ e, Has A.tree e → A.stamp e = B.stamp e := by
  obtain ⟨ka, ta, R⟩ := V.tree
  obtain ⟨kb, tb, Q⟩ := W.tree
  have hk : ∀ {ka kb : Tree.Kids} {ta tb : Nat → Rb.T} {S T : FS}, RelK up v.tree ka ta S → RelK up v.tree kb tb T →
      ∀ i e m, (e, m) ∈ ka i → (e, m) ∈ kb i := by
    intro ka kb ta tb S T R Q i e m h
    have ht : ta i = tb i := rep_unique (R.inv.holds i).dir.rep (Q.inv.holds i).dir.rep
    have h1 : e ∈ (tb i).ids := by
      rw [← ht]
      exact (R.inv.holds i).ids.mem_iff.2 (List.mem_map_of_mem (f := (·.1)) h)
    obtain ⟨⟨e', m'⟩, h2, h3⟩ := List.mem_map.1 ((Q.inv.holds i).ids.mem_iff.1 h1)
    dsimp only at h3
    subst h3
    have a1 := (R.inv.holds i).key _ h
    have a2 := (Q.inv.holds i).key _ h2
    dsimp only at a1 a2
    rw [← a1, a2]
    exact h2
  have hgo : ∀ p i, Tree.go ka i p = Tree.go kb i p := by
    intro p
    induction p with
    | nil => intro i; rfl
    | cons m r ih =>
      intro i
      have : Tree.kid ka i m = Tree.kid kb i m := by
        refine Option.ext fun e => ?_
        rw [R.inv.shape.kid, Q.inv.shape.kid]
        exact ⟨hk R Q i e m, hk Q R i e m⟩
      simp only [Tree.go, this, ih]
  have htree : A.tree = B.tree := by
    rw [R.eq, Q.eq]
    funext p
    simp only [Tree.fs, hgo]
  obtain ⟨c1, m1, i1⟩ := V.file
  obtain ⟨c2, m2, i2⟩ := W.file
  refine ⟨htree, ?_, ?_⟩
  · funext e
    obtain ⟨a1, a2, a3⟩ := i1.rel.view e
    obtain ⟨b1, b2, b3⟩ := i2.rel.view e
    have hc := a1.chain.symm.trans b1.chain
    rw [a2] at hc
    have : Fat.cont v.file.sys.fs c1 m1 e = Fat.cont v.file.sys.fs c2 m2 e := by
      unfold Fat.cont Fat.loc
      unfold Fat.chainOf at hc
      split <;> rename_i h
      · rw [if_pos h, if_pos h] at hc; rw [hc]
      · rw [if_neg h, if_neg h] at hc; rw [hc]
    rw [a3, b3, this]
  · intro e he
    have hl := (V.live e).2 he
    rw [V.stamp e hl, W.stamp e hl]

/-- **C51.** A compound file is opened, and at each path the stream is read that the file stores there
(`outOfRange` is the error of the model for what the format cannot number). -/
theorem C51_read {g : Bytes} {d : Desc} {A : AVol} (S : Stores up g d A) :
    ∃ v, openVol g = .ok v ∧ ∀ p, Plain p → (∀ m ∈ p, Char.ofNat 0 ∉ m) →
      (readAt up v p = .error .outOfRange ∨ readAt up v p = .ok (A.bytes p)) := by
  obtain ⟨v, h, V⟩ := open_vol S
  refine ⟨v, h, fun p hp hN => ?_⟩
  rcases readAt_ok V hp hN with h | ⟨x, h, rfl⟩
  · exact .inl h
  · exact .inr h

/-- **C51.** Every history of calls on the opened file acts as on the tree that it stores, up to the first
call that is not described (see `C48_history_partial`). -/
theorem C51_history_partial {g : Bytes} {d : Desc} {A : AVol} (S : Stores up g d A) (cs : List VCall)
    (hp : ∀ c ∈ cs, Proper c) :
    ∃ v0, openVol g = .ok v0 ∧ ∃ a b os v B, Follows up v0 A cs a b os v B := by
  obtain ⟨v0, h, V⟩ := open_vol S
  obtain ⟨a, b, os, v, B, h2, _⟩ := core cs V hp
  exact ⟨v0, h, a, b, os, v, B, h2⟩

/-- **C51.** A file stores one content only: two descriptions of the same bytes have the same paths, the same
bytes of all streams and the same stamps. -/
theorem C51_unique {g : Bytes} {d d' : Desc} {A B : AVol} (S : Stores up g d A) (T : Stores up g d' B) :
    A.tree = B.tree ∧ A.str = B.str ∧ ∀ e, Has A.tree e → A.stamp e = B.stamp e := by
  obtain ⟨v, h1, V⟩ := open_vol S
  obtain ⟨w, h2, W⟩ := open_vol T
  rw [h1] at h2
  cases h2
  have hss : d.ss = d'.ss := by
    obtain ⟨_, _, i⟩ := V.file
    obtain ⟨_, _, j⟩ := W.file
    exact i.rel.ss.symm.trans j.rel.ss
  rw [← hss] at W
  exact vrel_unique V W

/-! ## A file -/

theorem seed_bad : ¬ Bad up start (.open [nA] .w) := by
  rintro ⟨_, _, h | h⟩
  · obtain ⟨q, m, _, _, e, he⟩ := h
    simp [start, root] at he
  · obtain ⟨q, m, h1, _, _, h2⟩ := h
    have : q = [] ∧ m = nA := by
      cases q with
      | nil => simpa using h1.symm
      | cons x r => cases r <;> simp at h1
    rw [this.2] at h2
    exact absurd h2 (by decide)

theorem seed_proper : Proper (.open [nA] .w) ∧ Proper (.io (.write 4 [1, 2, 3])) := by
  refine ⟨?_, by intro p hp; cases hp⟩
  intro p hp
  simp only [VCall.paths, List.mem_singleton] at hp
  subst hp
  refine ⟨fun m hm => ?_, fun m hm => ?_⟩ <;>
  · simp only [List.mem_singleton] at hm; subst hm; decide

/-- The two calls succeed. -/
theorem seed_run : ∃ v0 x v1 A1 y v A, newVol 512 [] = .ok v0 ∧ VRel Rb.upAscii 512 v0 start ∧
    vstep Rb.upAscii v0 (vop (.open [nA] .w)) = .ok (x, v1) ∧ VRel Rb.upAscii 512 v1 A1 ∧
    vstep Rb.upAscii v1 (vop (.io (.write 4 [1, 2, 3]))) = .ok (y, v) ∧ VRel Rb.upAscii 512 v A ∧
    A.bytes [nA] = some [1, 2, 3] := by
  obtain ⟨v0, h0, V0⟩ := newVol_ok Rb.upAscii (ss := 512) (.inl rfl) []
  have hrun : (do
      let v ← newVol 512 []
      let (_, v1) ← vstep Rb.upAscii v (vop (.open [nA] .w))
      let (_, v2) ← vstep Rb.upAscii v1 (vop (.io (.write 4 [1, 2, 3])))
      let x ← readAt Rb.upAscii v2 [nA]
      .ok (v1.tree.broken, v2.tree.broken, x) : Res (Bool × Bool × Option Bytes)) = .ok (false, false, some [1, 2, 3]) := by
    decide +kernel
  rw [h0] at hrun
  simp only [bind, Except.bind] at hrun
  rcases vstep_ok V0 seed_proper.1 seed_bad with h | ⟨⟨o1, v1⟩, h1, h⟩
  · rw [h] at hrun; cases hrun
  rw [h1] at hrun
  dsimp only at hrun
  rcases h with h | ⟨A1, _, V1⟩
  · dsimp only at h
    rw [h] at hrun
    split at hrun
    · cases hrun
    split at hrun
    · cases hrun
    simp only [Except.ok.injEq, Prod.mk.injEq] at hrun
    exact absurd hrun.1 (by decide)
  rcases vstep_ok V1 seed_proper.2 (fun h => h) with h | ⟨⟨o2, v2⟩, h2, h⟩
  · rw [h] at hrun; cases hrun
  rw [h2] at hrun
  dsimp only at hrun
  rcases h with h | ⟨A2, _, V2⟩
  · dsimp only at h
    rw [h] at hrun
    split at hrun
    · cases hrun
    simp only [Except.ok.injEq, Prod.mk.injEq] at hrun
    exact absurd hrun.2.1 (by decide)
  dsimp only at V2
  have hp : Plain [nA] := by
    intro m hm; simp only [List.mem_singleton] at hm; subst hm; decide
  have hN : ∀ m ∈ [nA], Char.ofNat 0 ∉ m := by
    intro m hm; simp only [List.mem_singleton] at hm; subst hm; decide
  rcases readAt_ok V2 hp hN with h | ⟨x, h, rfl⟩
  · rw [h] at hrun; cases hrun
  rw [h] at hrun
  dsimp only at hrun
  simp only [Except.ok.injEq, Prod.mk.injEq] at hrun
  exact ⟨v0, o1, v1, A1, o2, v2, A2, h0, V0, h1, V1, h2, V2, hrun.2.2⟩

/-- The hypotheses of the theorems are met by the file that closing then leaves. -/
theorem C51_witness : ∃ g d A, Stores Rb.upAscii g d A ∧ A.bytes [nA] = some [1, 2, 3] := by
  obtain ⟨v0, _, v1, A1, _, v, A, _, _, _, _, _, V, h⟩ := seed_run
  obtain ⟨g, d, _, _, S⟩ := close_stores V
  exact ⟨g, d, _, S, h⟩

/-! ## What the format allows and the program cannot edit -/

/-- The file after these calls. -/
def fileOf (cs : List VCall) : Res Bytes := do
  let v ← newVol 512 []
  let (_, v) ← vrun Rb.upAscii v (cs.map vop)
  closeVol v

/-- Calls on a file; then what is at some paths. -/
def edit (g : Bytes) (cs : List VCall) (ps : List Path) : Res (List (Res (Option Bytes))) := do
  let v ← openVol g
  let (_, v) ← vrun Rb.upAscii v (cs.map vop)
  .ok (ps.map (readAt Rb.upAscii v))

/-- Two streams, `a` without bytes, and the file with `0xFFFFFFFE` as start of `a`, as in the files of other
applications. -/
def twoStreams : List VCall := [.open [nA] .w, .open [nB] .w, .io (.write 5 [7])]

/-- **Finding.** `allocate` sets the start of a stream only if it is `None` (cfb.py:235-236), and only
`0xFFFFFFFF` is read as `None` (`decode_sid`).  [MS-CFB] has `0xFFFFFFFE` as start of an empty stream.  Such a
file is read as it should be (first part), but what is written to the stream is lost: in the same session, the
stream cannot be read any more (second part).  In the file that the program itself makes this works
(third part). -/
theorem C51_empty_counterexample :
    (fileOf twoStreams >>= fun g => edit (patch g [0xfe, 0xff, 0xff, 0xff] (3 * 512 + 116)) [] [[nA], [nB]]) =
      .ok [.ok (some []), .ok (some [7])] ∧
    (fileOf twoStreams >>= fun g => edit (patch g [0xfe, 0xff, 0xff, 0xff] (3 * 512 + 116))
      [.open [nA] .rw, .io (.write 4 [1])] [[nA], [nB]]) = .ok [.error .indexError, .ok (some [7])] ∧
    (fileOf twoStreams >>= fun g => edit g [.open [nA] .rw, .io (.write 4 [1])] [[nA], [nB]]) =
      .ok [.ok (some [1]), .ok (some [7])] := by
  refine ⟨?_, ?_, ?_⟩ <;> decide +kernel

/-- **Finding.** The same for the root storage of a file without small streams, where [MS-CFB] has `0xFFFFFFFE`
too: `close` takes the start for that of a mini stream, and looks for the last entry in use of an empty table
(cfb.py:1149-1159).  Opening the file with `'rb+'` and closing it raises. -/
theorem C51_root_counterexample :
    (fileOf [.path (.create [nA] true)] >>= fun g => openVol (patch g [0xfe, 0xff, 0xff, 0xff] (512 + 116)) >>= closeVol) =
      .error .unboundLocal ∧
    ((fileOf [.path (.create [nA] true)] >>= fun g => openVol g >>= closeVol).map fun _ => ()) = .ok () := by
  refine ⟨?_, ?_⟩ <;> decide +kernel

end Verif.Compound
