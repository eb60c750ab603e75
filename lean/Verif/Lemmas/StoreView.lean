import Verif.Lemmas.VolSolid
import Verif.Model.ObjectStore
/-!
# What is at each path, without ids
-/
namespace Verif.Store
open Verif.Volume
open Verif.Tree (op PlainCall Grow ans)
open Verif.Rb (Name)
open Verif.PathTree hiding Name AStep
open Verif.Fat (SpecStep)

variable {up : Name → Name} {n : Nat}

/-- Storage or stream, bytes, stamp. -/
abbrev View := Path → Option (Bool × Bytes × Bytes)

def View.put (L : View) (p : Path) (x : Bool × Bytes × Bytes) : View := fun q => if q = p then some x else L q

theorem View.put_same (L : View) (p : Path) (x : Bool × Bytes × Bytes) : L.put p x p = some x := if_pos rfl
theorem View.put_ne (L : View) {p q : Path} (x : Bool × Bytes × Bytes) (h : q ≠ p) : L.put p x q = L q := if_neg h

def look (A : AVol) : View := fun p => (A.tree p).map fun x => (x.1, if x.1 then [] else (A.str x.2).1, A.stamp x.2)

/-- The bytes and position of one stream change. -/
abbrev updStr (A : AVol) (e : Nat) (b : Bytes) (o : Nat) : AVol := { A with str := A.str.set e b o }

/-- The file stands for `A`, and no tree is broken. -/
structure VS (up : Name → Name) (n : Nat) (v : Vol) (A : AVol) : Prop where
  rel : VRel up n v A
  solid : Solid v

theorem look_some {A : AVol} {p : Path} {k : Bool} {b K : Bytes} :
    look A p = some (k, b, K) ↔ ∃ e, A.tree p = some (k, e) ∧ (if k then [] else (A.str e).1) = b ∧ A.stamp e = K := by
  unfold look
  constructor
  · intro h
    obtain ⟨⟨k', e⟩, h1, h2⟩ := Option.map_eq_some_iff.1 h
    cases h2
    exact ⟨e, h1, rfl, rfl⟩
  · rintro ⟨e, h1, rfl, rfl⟩
    rw [h1]; rfl

theorem look_none {A : AVol} {p : Path} : look A p = none ↔ A.tree p = none := by
  unfold look; rw [Option.map_eq_none_iff]

theorem look_ne {A : AVol} {p : Path} : look A p ≠ none ↔ A.tree p ≠ none := not_congr look_none

theorem look_of {A : AVol} {p : Path} {k : Bool} {e : Nat} (h : A.tree p = some (k, e)) :
    look A p = some (k, if k then [] else (A.str e).1, A.stamp e) := by simp only [look, h, Option.map_some]

/-- There is a storage. -/
def View.Dir (L : View) (p : Path) : Prop := ∃ K, L p = some (true, [], K)

theorem look_dir {A : AVol} {p : Path} : (look A).Dir p ↔ IsStor A.tree p := by
  constructor
  · rintro ⟨K, h⟩; obtain ⟨e, h, _⟩ := look_some.1 h; exact ⟨e, h⟩
  · rintro ⟨e, h⟩; exact ⟨_, look_of h⟩

/-- A new entry can be made. -/
structure View.Free (up : Name → Name) (L : View) (q : Path) (m : Name) : Prop where
  none : L (q ++ [m]) = none
  dir : L.Dir q
  short : units m ≤ 32
  alone : ∀ m', L (q ++ [m']) ≠ Option.none → m'.length = m.length → up m' ≠ up m

theorem VS.not_blocked {v : Vol} {A : AVol} (V : VS up n v A) {p : Path} (h : look A p ≠ none) : ¬ Blocked A.tree p := by
  obtain ⟨kids, tt, R⟩ := V.rel.tree
  intro hb
  have h := look_ne.1 h
  have := mt R.isNone.2 h
  cases hg : Tree.go kids 0 p with
  | none => exact this hg
  | some i => exact R.inv.open' hg (R.blocked.1 hb)

theorem VS.not_blocked_in {v : Vol} {A : AVol} (V : VS up n v A) {p : Path} (h : (look A).Dir p) (m : Name) :
    ¬ Blocked A.tree (p ++ [m]) := by
  obtain ⟨kids, tt, R⟩ := V.rel.tree
  intro hb
  exact R.noStor (R.blocked.1 hb) (look_dir.1 h)

theorem Good.self' {α : Type} {r : Res α} {P : α → Prop} (h : Good r P) : Good r fun a => P a ∧ r = .ok a := by
  rcases h with h | ⟨a, h, hp⟩
  · exact .inl h
  · exact .inr ⟨a, h, hp, h⟩

theorem good_ok {α : Type} {r : Res α} {a : α} {P : α → Prop} (h : r = .ok a) (hp : P a) : Good r P := .inr ⟨a, h, hp⟩

theorem find_ok {v : Vol} {A : AVol} (V : VS up n v A) {p : Path} (hp : Plain p) (hb : ¬ Blocked A.tree p) :
    Good (dirCall up v (.find (text p))) fun x => VS up n x.2 A ∧ x.1 = .ok (.ent ((A.tree p).map (·.2))) := by
  refine (Good.self' (dirCall_find V.rel hp)).mono ?_
  rintro ⟨x, v'⟩ ⟨⟨h1, _, h2⟩, h3⟩
  exact ⟨⟨h1, (find_solid V.rel V.solid hp h3).2⟩, h2 hb⟩

/-- The look after something was put at one new path. -/
theorem look_create {A : AVol} {p : Path} {k : Bool} {e : Nat} {S : Fat.Spec} {K : Nat → Bytes} (h3 : Unused A.tree e)
    (c : Carried A (A.tree.put p (some (k, e))) S K) :
    look ⟨A.tree.put p (some (k, e)), S, K⟩ = (look A).put p (k, [], List.replicate 36 0) := by
  funext q
  by_cases hq : q = p
  · subst hq
    rw [View.put_same]
    have hT : (A.tree.put q (some (k, e))) q = some (k, e) := if_pos rfl
    have := c.new e ⟨q, k, hT⟩ (by rintro ⟨r, b, hr⟩; exact h3 r b hr)
    rw [look_of (A := ⟨A.tree.put q (some (k, e)), S, K⟩) hT]
    dsimp only
    rw [this.1, this.2]
    cases k <;> rfl
  · rw [View.put_ne _ _ hq]
    have hT : (A.tree.put p (some (k, e))) q = A.tree q := if_neg hq
    cases hA : A.tree q with
    | none => rw [look_none.2 hA, look_none]; exact hT.trans hA
    | some x =>
      obtain ⟨b, i⟩ := x
      have := c.old i ⟨q, b, hT.trans hA⟩ ⟨q, b, hA⟩
      rw [look_of hA, look_of (A := ⟨A.tree.put p (some (k, e)), S, K⟩) (hT.trans hA)]
      dsimp only
      rw [this.1, this.2]

theorem Free.notOdd {A : AVol} {q : Path} {m : Name} (f : (look A).Free up q m) (k : Bool) :
    ¬ Odd up A.tree (.create (q ++ [m]) k) ∧ ¬ Long A.tree (.create (q ++ [m]) k) := by
  refine ⟨?_, ?_⟩
  · rintro ⟨q', m', h1, _, m'', h3, h4, h5⟩
    have := List.append_inj' h1 rfl
    obtain ⟨rfl, h⟩ := this
    cases h
    exact f.alone m'' (look_ne.2 h3) h4 h5
  · rintro ⟨q', m', h1, _, _, h3⟩
    obtain ⟨rfl, h⟩ := List.append_inj' h1 rfl
    cases h
    have := f.short
    omega

/-- A new entry. -/
theorem create_ok {v : Vol} {A : AVol} (V : VS up n v A) {q : Path} {m : Name} {k : Bool} (hp : Plain (q ++ [m]))
    (hN : ∀ x ∈ q ++ [m], Char.ofNat 0 ∉ x) (f : (look A).Free up q m) :
    Good (dirCall up v (.create (text (q ++ [m])) (if k then 1 else 2))) fun x => ∃ e A', x.1 = .ok (.ent (some e)) ∧
      VS up n x.2 A' ∧ A'.tree (q ++ [m]) = some (k, e) ∧ (A'.str e).2 = 0 ∧
      look A' = (look A).put (q ++ [m]) (k, [], List.replicate 36 0) := by
  obtain ⟨ho, hL⟩ := Free.notOdd f k
  have hd := dirCall_create V.rel (p := q ++ [m]) (k := k) (by intro r hr; simp only [Call.paths, List.mem_singleton] at hr; exact hr ▸ hp)
    (by intro r hr; simp only [Call.paths, List.mem_singleton] at hr; exact hr ▸ hN) ho hL
  refine (Good.self' hd).mono ?_
  rintro ⟨x, v'⟩ ⟨h, h'⟩
  obtain ⟨b1, s1⟩ := create_solid V.rel V.solid (k := k) hp ho h'
  rcases h with h | ⟨T, S, K, h1, h2, h3⟩
  · dsimp only at h
    rw [h] at b1; cases b1
  · dsimp only at h1 h3
    generalize ha : ans x = a at h1
    generalize hc : Call.create (q ++ [m]) k = c at h1
    cases h1 with
    | create a1 a2 a3 a4 =>
      rename_i e
      injection hc with hc hk
      obtain ⟨hc, hc'⟩ := List.append_inj' hc rfl
      injection hc' with hc'
      subst hc hc'
      subst hk
      refine ⟨e, _, ?_, ⟨h3, s1⟩, if_pos rfl, ?_, look_create a4 h2⟩
      · cases x with
        | error er => cases ha
        | ok y => cases y <;> cases ha; rfl
      · have hT : (A.tree.put (q ++ [m]) (some (k, e))) (q ++ [m]) = some (k, e) := if_pos rfl
        have := (h2.new e ⟨_, _, hT⟩ (by rintro ⟨r, b, hr⟩; exact a4 r b hr)).1
        dsimp only
        rw [this]
    | createErr h =>
      injection hc with hc hk
      subst hc
      exfalso
      rcases h with h | h | h | h
      · simp at h
      · exact h (look_none.1 f.none)
      · rw [List.dropLast_concat] at h
        exact h (look_dir.1 f.dir)
      · rw [List.getLast?_concat] at h
        have := f.short
        simp only [Option.getD_some] at h
        omega
    | _ => cases hc

/-- A stream that can be opened for writing: it exists, or can be made. -/
inductive View.Ready (up : Name → Name) (L : View) : Path → Prop where
  | old {p : Path} {b K : Bytes} (h : L p = some (false, b, K)) : View.Ready up L p
  | new {q : Path} {m : Name} (h : L.Free up q m) : View.Ready up L (q ++ [m])

/-- Streams have changed at one path only. -/
def View.Set (L : View) (p : Path) (b : Bytes) (L' : View) : Prop := ∃ K, L' = L.put p (false, b, K)

theorem View.put_put (L : View) (p : Path) (x y : Bool × Bytes × Bytes) : (L.put p x).put p y = L.put p y := by
  funext q; unfold View.put; split <;> rfl

theorem View.put_self {L : View} {p : Path} {x : Bool × Bytes × Bytes} (h : L p = some x) : L.put p x = L := by
  funext q; unfold View.put; split
  · rename_i hq; rw [hq, h]
  · rfl

/-- The look after the bytes of a stream changed. -/
theorem look_str {v : Vol} {A : AVol} (V : VRel up n v A) {p : Path} {e : Nat} (h : A.tree p = some (false, e)) (b : Bytes) (o : Nat) :
    look { A with str := A.str.set e b o } = (look A).put p (false, b, A.stamp e) := by
  funext q
  by_cases hq : q = p
  · subst hq
    rw [View.put_same, look_of (A := { A with str := A.str.set e b o }) h]
    simp [Fat.Spec.set]
  · rw [View.put_ne _ _ hq]
    cases hA : A.tree q with
    | none => rw [look_none.2 hA, look_none]; exact hA
    | some x =>
      obtain ⟨k, i⟩ := x
      rw [look_of hA, look_of (A := { A with str := A.str.set e b o }) hA]
      have hi : i ≠ e := by rintro rfl; exact hq (V.uniq hA h)
      simp [Fat.Spec.set, hi]

theorem look_put_stamp {v : Vol} {A : AVol} (V : VRel up n v A) {p : Path} {e : Nat} {k : Bool} {b K : Bytes}
    (h : A.tree p = some (k, e)) (hl : look A p = some (k, b, K)) (K' : Bytes) :
    look { A with stamp := A.put e K' } = (look A).put p (k, b, K') := by
  obtain ⟨e', h1, h2, h3⟩ := look_some.1 hl
  rw [h] at h1; cases h1
  funext q
  by_cases hq : q = p
  · subst hq
    rw [View.put_same, look_of (A := { A with stamp := A.put e K' }) h]
    simp [AVol.put, h2]
  · rw [View.put_ne _ _ hq]
    cases hA : A.tree q with
    | none => rw [look_none.2 hA, look_none]; exact hA
    | some x =>
      obtain ⟨k', i⟩ := x
      rw [look_of hA, look_of (A := { A with stamp := A.put e K' }) hA]
      have hi : i ≠ e := by rintro rfl; exact hq (V.uniq hA h)
      simp [AVol.put, hi]

theorem Ready.notBad {A : AVol} {p : Path} (f : (look A).Ready up p) (m : AMode) : ¬ Bad up A (.open p m) := by
  rintro ⟨h1, _, h2⟩
  cases f with
  | old h => rw [look_none.2 h1] at h; cases h
  | new f =>
    obtain ⟨a, b⟩ := Free.notOdd f false
    exact h2.elim a b

/-- Opening a stream for writing. -/
theorem open_ok {v : Vol} {A : AVol} (V : VS up n v A) {p : Path} (hp : Plain p) (hN : ∀ x ∈ p, Char.ofNat 0 ∉ x)
    (f : (look A).Ready up p) (m : Mode) (hm : m = .rw ∨ m = .w) :
    Good (openPath up v (text p) m) fun x => ∃ e A' b, x.1 = .ok (.ent (some e)) ∧ VS up n x.2 A' ∧
      A'.tree p = some (false, e) ∧ A'.str e = (b, 0) ∧ (m = .w → b = []) ∧ (look A).Set p b (look A') ∧
      (m = .rw → look A p ≠ none → look A' = look A) := by
  refine (Good.self' (openPath_ok V.rel hp hN m (Ready.notBad f _))).mono ?_
  rintro ⟨x, v'⟩ ⟨h, h'⟩
  obtain ⟨b1, s1⟩ := openPath_solid V.rel V.solid hp m (Ready.notBad f _) h'
  rcases h with ⟨h, _⟩ | ⟨A', h1, h2⟩
  · dsimp only at h
    rw [h] at b1; cases b1
  dsimp only at h1 h2
  have hans : ∀ e, ans x = .ent (some e) → x = .ok (.ent (some e)) := by
    intro e h
    cases x with
    | error er => cases h
    | ok y => cases y <;> simp only [ans] at h <;> cases h; rfl
  generalize ha : VAns.path (ans x) = a at h1
  generalize hma : m.abs = ma at h1
  cases h1 with
  | openOld h hm' =>
    rename_i e
    injection ha with ha
    refine ⟨e, _, (A.str e).1, hans e ha, ⟨h2, s1⟩, h, by simp [Fat.Spec.set], ?_, ?_⟩
    · rintro rfl; subst hma; rcases hm' with h | h <;> cases h
    · refine ⟨⟨A.stamp e, ?_⟩, fun _ _ => ?_⟩
      · rw [look_str V.rel h]
      · rw [look_str V.rel h, View.put_self]
        rw [look_of h]; simp
  | openOver h =>
    rename_i e
    injection ha with ha
    refine ⟨e, _, [], hans e ha, ⟨h2, s1⟩, h, by simp [Fat.Spec.set], fun _ => rfl, ?_⟩
    refine ⟨⟨List.replicate 16 0 ++ (A.stamp e).drop 16, ?_⟩, fun hm => by subst hm; cases hma⟩
    funext q
    by_cases hq : q = p
    · subst hq
      rw [View.put_same, look_of (A := ⟨A.tree, A.str.set e [] 0, _⟩) h]
      simp [Fat.Spec.set, AVol.put]
    · rw [View.put_ne _ _ hq]
      cases hA : A.tree q with
      | none => rw [look_none.2 hA, look_none]; exact hA
      | some x =>
        obtain ⟨k, i⟩ := x
        rw [look_of hA, look_of (A := ⟨A.tree, A.str.set e [] 0, _⟩) hA]
        have hi : i ≠ e := by rintro rfl; exact hq (V.rel.uniq hA h)
        simp [Fat.Spec.set, AVol.put, hi]
  | openOther h => rcases hm with rfl | rfl <;> cases hma
  | openDir h =>
    obtain ⟨i, h⟩ := h
    exfalso
    cases f with
    | old f =>
      obtain ⟨e, h', _⟩ := look_some.1 f
      rw [h] at h'; cases h'
    | new f =>
      have := look_none.1 f.none
      rw [h] at this; cases this
  | openMissing h => rcases hm with rfl | rfl <;> cases hma
  | openNew h hm' s k =>
    rename_i a' T S K
    rw [if_neg (by subst hma; rcases hm with rfl | rfl <;> simp [Mode.abs])] at ha
    injection ha with ha
    cases f with
    | old f =>
      obtain ⟨e, h', _⟩ := look_some.1 f
      rw [h] at h'; cases h'
    | @new q m' f =>
      generalize hc : Call.create (q ++ [m']) false = c at s
      cases s with
      | create a1 a2 a3 a4 =>
        rename_i e
        injection hc with hc hk
        obtain ⟨hc, hc'⟩ := List.append_inj' hc rfl
        injection hc' with hc'
        subst hc hc'
        subst hk
        have hT : (A.tree.put (q ++ [m']) (some (false, e))) (q ++ [m']) = some (false, e) := if_pos rfl
        have := (k.new e ⟨_, _, hT⟩ (by rintro ⟨r, b, hr⟩; exact a4 r b hr)).1
        exact ⟨e, _, [], hans e ha, ⟨h2, s1⟩, hT, this, fun _ => rfl, ⟨List.replicate 36 0, look_create a4 k⟩,
          fun _ h' => absurd (look_none.2 h) h'⟩
      | createErr h =>
        injection hc with hc hk
        subst hc
        exfalso
        rcases h with h | h | h | h
        · simp at h
        · exact h (look_none.1 f.none)
        · rw [List.dropLast_concat] at h
          exact h (look_dir.1 f.dir)
        · rw [List.getLast?_concat] at h
          have := f.short
          simp only [Option.getD_some] at h
          omega
      | _ => cases hc

/-- One `write`. -/
theorem write_ok {v : Vol} {A : AVol} (V : VS up n v A) {p : Path} {e : Nat} (h : A.tree p = some (false, e)) (b : Bytes) :
    Good (Fat.cstep v.file (.io (.write e b))) fun x => VS up n ⟨v.tree, x.2⟩ (updStr A e
      ((A.str e).1.take (A.str e).2 ++ b ++ (A.str e).1.drop ((A.str e).2 + b.length)) ((A.str e).2 + b.length)) := by
  refine (io_put V.rel (o := .write e b) rfl h (S := (updStr A e
      ((A.str e).1.take (A.str e).2 ++ b ++ (A.str e).1.drop ((A.str e).2 + b.length)) ((A.str e).2 + b.length)).str) ?_).mono ?_
  · intro r s hs; cases hs; rfl
  · rintro ⟨x, c⟩ ⟨_, _, h1⟩
    exact ⟨h1, V.solid.of_tree rfl⟩

theorem truncate_ok {v : Vol} {A : AVol} (V : VS up n v A) {p : Path} {e : Nat} (h : A.tree p = some (false, e)) :
    Good (Fat.cstep v.file (.io (.truncateHere e))) fun x => VS up n ⟨v.tree, x.2⟩ (updStr A e
      ((A.str e).1.take (A.str e).2) (A.str e).2) := by
  refine (io_put V.rel (o := .truncateHere e) rfl h (S := (updStr A e
      ((A.str e).1.take (A.str e).2) (A.str e).2).str) ?_).mono ?_
  · intro r s hs; cases hs; rfl
  · rintro ⟨x, c⟩ ⟨_, _, h1⟩
    exact ⟨h1, V.solid.of_tree rfl⟩

theorem View.Set.trans {L L' L'' : View} {p : Path} {b b' : Bytes} (h : L.Set p b L') (h' : L'.Set p b' L'') : L.Set p b' L'' := by
  obtain ⟨K, rfl⟩ := h
  obtain ⟨K', rfl⟩ := h'
  exact ⟨K', View.put_put _ _ _ _⟩

/-- A whole stream is written. -/
theorem writeStream_ok {v : Vol} {A : AVol} (V : VS up n v A) {p : Path} (hp : Plain p) (hN : ∀ x ∈ p, Char.ofNat 0 ∉ x)
    (f : (look A).Ready up p) (b : Bytes) :
    Good (writeStream up v (text p) (.ok b)) fun x => x.1 = .ok () ∧ ∃ A', VS up n x.2 A' ∧ (look A).Set p b (look A') := by
  refine Good.bind (open_ok V hp hN f .rw (.inl rfl)) ?_
  rintro ⟨x, v1⟩ ⟨e, A1, b1, h1, V1, h2, h3, _, h4, _⟩
  dsimp only at h1 V1 ⊢
  subst h1
  refine Good.bind (write_ok V1 h2 b) ?_
  rintro ⟨_, c⟩ V2
  dsimp only at V2 ⊢
  have h2' : (updStr A1 e ((A1.str e).1.take (A1.str e).2 ++ b ++ (A1.str e).1.drop ((A1.str e).2 + b.length))
      ((A1.str e).2 + b.length)).tree p = some (false, e) := h2
  refine Good.bind (truncate_ok V2 h2') ?_
  rintro ⟨_, c'⟩ V3
  dsimp only at V3
  refine Good.ok ⟨rfl, _, V3, ?_⟩
  rw [look_str V2.rel h2', look_str V1.rel h2, View.put_put]
  refine h4.trans ⟨A1.stamp e, ?_⟩
  simp [Fat.Spec.set, h3]

theorem writeAll_ok (l : List Bytes) : ∀ {v : Vol} {A : AVol}, VS up n v A → ∀ {p : Path} {e : Nat} {b : Bytes},
    A.tree p = some (false, e) → A.str e = (b, b.length) →
    Good (writeAll l v e) fun x => ∃ A', VS up n x A' ∧ (look A).Set p (b ++ l.flatten) (look A') := by
  induction l with
  | nil =>
    intro v A V p e b h hb
    refine Good.ok ⟨A, V, A.stamp e, ?_⟩
    rw [View.put_self]
    rw [look_of h]; simp [hb]
  | cons d l ih =>
    intro v A V p e b h hb
    refine Good.bind (write_ok V h d) ?_
    rintro ⟨_, c⟩ V1
    dsimp only at V1 ⊢
    have h' : (updStr A e ((A.str e).1.take (A.str e).2 ++ d ++ (A.str e).1.drop ((A.str e).2 + d.length))
      ((A.str e).2 + d.length)).tree p = some (false, e) := h
    refine (ih V1 (b := b ++ d) h' ?_).mono ?_
    · simp [Fat.Spec.set, hb]
    · rintro v2 ⟨A2, V2, h2⟩
      refine ⟨A2, V2, ?_⟩
      rw [look_str V.rel h] at h2
      have := View.Set.trans (L := look A) ⟨_, rfl⟩ h2
      rwa [List.flatten_cons, ← List.append_assoc]

/-- A stream is opened with `'w'` and written. -/
theorem putStream_ok {v : Vol} {A : AVol} (V : VS up n v A) {p : Path} (hp : Plain p) (hN : ∀ x ∈ p, Char.ofNat 0 ∉ x)
    (f : (look A).Ready up p) (l : List Bytes) :
    Good (putStream up v (text p) l) fun x => x.1 = .ok () ∧ ∃ A', VS up n x.2 A' ∧ (look A).Set p l.flatten (look A') := by
  refine Good.bind (open_ok V hp hN f .w (.inr rfl)) ?_
  rintro ⟨x, v1⟩ ⟨e, A1, b1, h1, V1, h2, h3, hb, h4, _⟩
  dsimp only at h1 V1 ⊢
  subst h1
  obtain rfl := hb rfl
  refine Good.bind (writeAll_ok l V1 h2 h3) ?_
  rintro v2 ⟨A2, V2, h5⟩
  exact Good.ok ⟨rfl, A2, V2, by simpa using h4.trans h5⟩

/-- A stream is read. -/
theorem readStream_ok {v : Vol} {A : AVol} (V : VS up n v A) {p : Path} (hp : Plain p) (hb : ¬ Blocked A.tree p)
    (hs : ¬ (look A).Dir p) :
    Good (readStream up v (text p)) fun x => x.1 = .ok ((look A p).map (·.2.1)) ∧ ∃ A', VS up n x.2 A' ∧ look A' = look A := by
  refine Good.bind (find_ok V hp hb) ?_
  rintro ⟨x, v1⟩ ⟨V1, h1⟩
  dsimp only at h1 V1 ⊢
  subst h1
  cases hA : A.tree p with
  | none =>
    simp only [Option.map_none]
    exact Good.ok ⟨by rw [look_none.2 hA]; rfl, A, V1, rfl⟩
  | some y =>
    obtain ⟨k, e⟩ := y
    cases k with
    | true => exact absurd (look_dir.2 ⟨e, hA⟩) hs
    | false =>
      simp only [Option.map_some]
      refine Good.bind (Good.self' (openOld_ok V1.rel hA .r)) ?_
      rintro ⟨y, v2⟩ ⟨⟨A2, h2, V2⟩, h3⟩
      have s2 := V1.solid.of_tree (openOld_tree h3)
      dsimp only at h2 V2 s2 ⊢
      generalize ha : VAns.path (ans y) = a at h2
      cases h2 with
      | openOld h hm =>
        rename_i e'
        rw [hA] at h; cases h
        injection ha with ha
        cases y with
        | error er => cases ha
        | ok y =>
          dsimp only
          have hA2 : ({ A with str := A.str.set e (A.str e).1 0 } : AVol).tree p = some (false, e) := hA
          refine Good.bind (io_rel V2 (.read e (-1))) ?_
          rintro ⟨o, c⟩ ⟨_, _, S, h4, h5⟩
          dsimp only at h4 h5 ⊢
          generalize hB : (⟨Fat.dirOf v2.file, S⟩ : Fat.AFile) = B at h4
          cases h4 with
          | io ht hs h =>
            cases hB
            cases h
            refine Good.ok ⟨?_, _, ⟨h5, s2.of_tree rfl⟩, ?_⟩
            · rw [look_of hA]; simp [Fat.Spec.set, Fat.count]
            · dsimp only
              rw [look_str V2 hA2, look_str V1.rel hA, View.put_put, View.put_self]
              rw [look_of hA]; simp [Fat.Spec.set]
          | ioNot a1 a2 => exact absurd ((isStr_iff V2).2 ⟨p, hA2⟩) (a2 e rfl)
      | openDir h => obtain ⟨i, h⟩ := h; rw [hA] at h; cases h
      | openMissing h => rw [hA] at h; cases h
      | openNew _ hm => exact absurd rfl hm

/-- `makedir` of a storage that is there already. -/
theorem makeDir_old {v : Vol} {A : AVol} (V : VS up n v A) {p : Path} (hp : Plain p) (h : look A p ≠ none) :
    Good (makeDir up v (text p)) fun x => x.1 = .ok () ∧ VS up n x.2 A := by
  refine Good.bind (find_ok V hp (V.not_blocked h)) ?_
  rintro ⟨x, v1⟩ ⟨V1, h1⟩
  dsimp only at h1 V1 ⊢
  subst h1
  cases hA : A.tree p with
  | none => exact absurd (look_none.2 hA) h
  | some y => exact Good.ok ⟨rfl, V1⟩

theorem makeDir_new {v : Vol} {A : AVol} (V : VS up n v A) {q : Path} {m : Name} (hp : Plain (q ++ [m]))
    (hN : ∀ x ∈ q ++ [m], Char.ofNat 0 ∉ x) (f : (look A).Free up q m) :
    Good (makeDir up v (text (q ++ [m]))) fun x => x.1 = .ok () ∧ ∃ A', VS up n x.2 A' ∧
      look A' = (look A).put (q ++ [m]) (true, [], List.replicate 36 0) := by
  refine Good.bind (find_ok V hp (V.not_blocked_in f.dir m)) ?_
  rintro ⟨x, v1⟩ ⟨V1, h1⟩
  dsimp only at h1 V1 ⊢
  subst h1
  rw [look_none.1 f.none]
  simp only [Option.map_none]
  refine Good.bind (create_ok V1 (k := true) hp hN f) ?_
  rintro ⟨y, v2⟩ ⟨e, A', h2, V2, _, _, h3⟩
  dsimp only at h2 V2 ⊢
  subst h2
  exact Good.ok ⟨rfl, A', V2, h3⟩

theorem VS.len {v : Vol} {A : AVol} (V : VS up n v A) {p : Path} {k : Bool} {b K : Bytes} (h : look A p = some (k, b, K)) :
    K.length = 36 := by
  obtain ⟨e, h1, _, rfl⟩ := look_some.1 h
  have hl : e ∈ v.file.live := (V.rel.live e).2 ⟨p, k, h1⟩
  rw [V.rel.stamp e hl]
  obtain ⟨ch, chm, i⟩ := V.rel.file
  have := i.r.toRInv0.len e hl
  simp [stampOf, slice, this]

/-- The class id of a storage. -/
theorem getClass_ok {v : Vol} {A : AVol} (V : VS up n v A) {p : Path} (hp : Plain p) {b K : Bytes} {k : Bool}
    (h : look A p = some (k, b, K)) :
    Good (getClass up v (text p)) fun x => x.1 = .ok (if K.take 16 = List.replicate 16 0 then none else some (K.take 16)) ∧
      VS up n x.2 A := by
  refine Good.bind (find_ok V hp (V.not_blocked (by rw [h]; simp))) ?_
  rintro ⟨x, v1⟩ ⟨V1, h1⟩
  dsimp only at h1 V1 ⊢
  subst h1
  obtain ⟨e, h2, _, rfl⟩ := look_some.1 h
  rw [h2]
  simp only [Option.map_some]
  rw [← V1.rel.stamp e ((V1.rel.live e).2 ⟨p, k, h2⟩)]
  exact Good.ok ⟨rfl, V1⟩

theorem setStamp_tree {v v' : Vol} {e : Nat} {b : Bytes} (h : setStamp v e b = .ok v') : v'.tree = v.tree := by
  unfold setStamp at h
  cases hc : Fat.cstep v.file (.edit e ((v.file.recs e).take 80 ++ b)) with
  | error er => rw [hc] at h; cases h
  | ok c => rw [hc] at h; cases h; rfl

theorem setClass_ok {v : Vol} {A : AVol} (V : VS up n v A) {p : Path} (hp : Plain p) {b K : Bytes} {k : Bool}
    (h : look A p = some (k, b, K)) {c : Bytes} (hc : c.length = 16) :
    Good (setClass up v (text p) c) fun x => x.1 = .ok () ∧ ∃ A', VS up n x.2 A' ∧
      look A' = (look A).put p (k, b, c ++ K.drop 16) := by
  refine Good.bind (find_ok V hp (V.not_blocked (by rw [h]; simp))) ?_
  rintro ⟨x, v1⟩ ⟨V1, h1⟩
  dsimp only at h1 V1 ⊢
  subst h1
  have hK := V.len h
  obtain ⟨e, h2, h3, h4⟩ := look_some.1 h
  rw [h2]
  simp only [Option.map_some]
  have hl := (V1.rel.live e).2 ⟨p, k, h2⟩
  rw [← V1.rel.stamp e hl, h4]
  obtain ⟨v', h5, h6⟩ := setStamp_ok V1.rel hl (b := c ++ K.drop 16) (by simp [hc, hK])
  refine Good.bind (good_ok h5 (P := fun x => x = v') rfl) ?_
  rintro _ rfl
  refine Good.ok ⟨rfl, _, ⟨h6, V1.solid.of_tree (setStamp_tree h5)⟩, ?_⟩
  exact look_put_stamp V1.rel h2 h _

/-- Closing and opening again. -/
theorem reopen_ok' {v : Vol} {A : AVol} (V : VS up n v A) : Good (reopen v) fun v' => ∃ A', VS up n v' A' ∧ look A' = look A := by
  obtain ⟨v', h1, h2, h3⟩ := reopen_solid V.rel
  have h4 : reopen v = .ok v' := by
    simp only [vstep] at h1
    cases hr : reopen v with
    | error e => rw [hr] at h1; cases h1
    | ok w => rw [hr] at h1; cases h1; rfl
  exact good_ok h4 ⟨_, ⟨h2, h3 V.solid⟩, rfl⟩

/-- A new file: the root alone. -/
theorem new_ok (up : Name → Name) {ss : Nat} (hss : ss = 512 ∨ ss = 4096) (f : Bytes) :
    ∃ v, newVol ss f = .ok v ∧ VS up ss v start := by
  obtain ⟨v, h1, h2⟩ := newVol_ok up hss f
  exact ⟨v, h1, h2, newVol_solid hss h1⟩

end Verif.Store
