import Verif.Lemmas.RbRep
/-!
# `insert` on represented trees

The loop of `insert` walks down the tree, with the last ancestors in variables.  Here the same steps
on a tree and the path to the current subtree (`zloop`), and the proof that the loop on the heap
does these steps.
-/
namespace Verif.Rb
variable {K : Type}

/-- The colour of the root set to black. -/
def T.blk : T → T
  | .nil => .nil
  | .node _ l i r => .node false l i r

/-- First part of the loop body. -/
def zplace (e : Nat) : T → T
  | .nil => .node true .nil e .nil
  | .node c l i r => if l.red && r.red then .node true l.blk i r.blk else .node c l i r

/-- Second part of the loop body. -/
def zfix (x : List Fr) (t : T) : Res (List Fr × T) :=
  match x with
  | [] => .ok (x, t)
  | [_] => .ok (x, t)
  | [f0, _] => if t.red && f0.c then .error .typeError else .ok (x, t)
  | f0 :: f1 :: f2 :: r =>
    if t.red && f0.c then
      if f0.d = f1.d then
        .ok (⟨f0.d, false, f0.i, mk f1.d true f0.t f1.i f1.t⟩ :: f2 :: r, t)
      else
        .ok (f2 :: r, mk (!f1.d) false (mk (!f1.d) true f1.t f1.i (t.side (!f1.d)))
          (t.root.getD 0) (mk (!f1.d) true (t.side f1.d) f0.i f0.t))
    else .ok (x, t)

/-- The frame of a step down from a tree. -/
def down (t : T) (d : Bool) : Fr := ⟨d, t.red, t.root.getD 0, t.side (!d)⟩

/-- The loop of `insert`; `lt i`: the new name is less than the name of `i`. -/
def zloop (lt : Nat → Bool) (e : Nat) : Nat → List Fr → T → Res T
  | 0, _, _ => .error .cfbError
  | k + 1, x, t =>
    match zfix x (zplace e t) with
    | .error er => .error er
    | .ok (x', t') =>
      if t = .nil then .ok (plug x' t')
      else
        let d := !(lt (t'.root.getD 0))
        zloop lt e k (down t' d :: x') (t'.side d)

/-- The path begins at the false root. -/
def HeadLast : List Fr → Prop
  | [] => False
  | [f] => f.i = 0 ∧ f.d = true ∧ f.t = .nil
  | f :: g :: r => f.i ≠ 0 ∧ HeadLast (g :: r)

/-- A subtree and the path to it, in the heap. -/
structure St (h : Heap K) (x : List Fr) (t : T) : Prop where
  repC : RepC h (some 0) x t.root
  rep : Rep h t.root t
  occ1 : ∀ j, t.occ j + occC j x ≤ 1
  hl : HeadLast x

/-- The entry to insert is not yet part of the tree. -/
structure Fresh (h : Heap K) (e : Nat) (x : List Fr) (t : T) : Prop where
  ne : e ≠ 0
  occ0 : t.occ e + occC e x = 0
  link : ∀ d, get h e d = none
  red : rd h e = true

/-- The variables of the loop, before the loop body. -/
def Vars (v : Ins) : List Fr → Prop
  | [] => False
  | [_] => v.parent = none ∧ v.gp = none ∧ v.ggp = some 0
  | [f0, _] => v.parent = some f0.i ∧ v.dir = f0.d ∧
      ((v.gp = none ∧ v.ggp = some 0) ∨ (v.gp = some 0 ∧ v.ggp = none ∧ f0.c = false))
  | f0 :: f1 :: f2 :: r => v.parent = some f0.i ∧ v.dir = f0.d ∧ v.gp = some f1.i ∧
      v.ggp = some f2.i ∧
      (f0.c = true → v.last = f1.d ∧ ∀ f3, r.head? = some f3 → v.gggp = some f3.i)

/-- The variables of the loop, after the repair. -/
def Post (v : Ins) (t : T) : List Fr → Prop
  | [] => False
  | [_] => (v.parent = none ∧ v.gp = none ∧ v.ggp = some 0) ∨
      (v.parent = some 0 ∧ v.gp = none ∧ v.ggp = none ∧ t.red = false)
  | [f0, _] => v.parent = some f0.i ∧ (v.gp = none ∧ v.ggp = some 0 ∨ v.gp = some 0) ∧
      (t.red = true → v.dir = f0.d)
  | f0 :: f1 :: f2 :: _ => v.parent = some f0.i ∧ v.gp = some f1.i ∧
      (t.red = true → v.dir = f0.d ∧ v.ggp = some f2.i) ∧ (v.ggp = some f2.i ∨ v.ggp = none)

theorem T.blk_occ (t : T) (j : Nat) : t.blk.occ j = t.occ j := by cases t <;> rfl
theorem T.blk_root (t : T) : t.blk.root = t.root := by cases t <;> rfl
theorem T.blk_red (t : T) : t.blk.red = false := by cases t <;> rfl

theorem T.root_none {t : T} : t.root = none ↔ t = .nil := by cases t <;> simp [T.root]

theorem T.occ_root {t : T} {n : Nat} (h : t.root = some n) : 1 ≤ t.occ n := by
  cases t with
  | nil => cases h
  | node c l i r => simp only [T.root, Option.some.injEq] at h; subst h; simp [T.occ]

theorem T.as_mk {t : T} {n : Nat} (h : t.root = some n) (d : Bool) :
    t = mk d t.red (t.side d) n (t.side (!d)) := by
  cases t with
  | nil => cases h
  | node c l i r => simp only [T.root, Option.some.injEq] at h; subst h; exact node_mk d c l r i

theorem HeadLast.occ {x : List Fr} (h : HeadLast x) : 1 ≤ occC 0 x := by
  induction x with
  | nil => cases h
  | cons f r ih =>
    cases r with
    | nil => simp [occC, h.1]
    | cons g r => have := ih h.2; simp only [occC] at this ⊢; omega

/-- The side on which a child hangs, found by comparing links. -/
theorem side_of {h : Heap K} {q0 : Option Nat} {f : Fr} {r : List Fr} {n : Nat} {α : Type}
    (hr : RepC h q0 (f :: r) (some n)) (hn : f.t.occ n = 0) (a b c : α) :
    (if get h f.i false = some n then a else if get h f.i true = some n then b else c)
      = if f.d then b else a := by
  obtain ⟨e1, e2, e3, e4⟩ := hr
  have ho : get h f.i (!f.d) ≠ some n := by
    intro e
    rw [e3.root] at e
    have := T.occ_root e
    omega
  cases hd : f.d
  · rw [hd] at e1; simp [e1]
  · rw [hd] at e1 ho
    have ho : get h f.i false ≠ some n := ho
    simp [e1, ho]

/-- Hanging a new subtree below a path. -/
theorem relink {h h1 : Heap K} {q0 : Option Nat} {f : Fr} {r : List Fr} {q : Option Nat} {n : Nat}
    {t' : T} (hr : RepC h q0 (f :: r) q) (ho : ∀ j, t'.occ j + occC j (f :: r) ≤ 1)
    (hs : ∀ j, 0 < occC j (f :: r) → Same h h1 j) (hn : n ≠ 0) (ht : Rep h1 (some n) t') :
    RepC (setLink h1 f.i f.d (some n)) q0 (f :: r) (some n) ∧
      Rep (setLink h1 f.i f.d (some n)) (some n) t' := by
  have hn' : ¬ n = HEAD := hn
  have sf := hs f.i (by simp [occC]; omega)
  have s2 : ∀ j, j ≠ f.i → Same h1 (setLink h1 f.i f.d (some n)) j := fun j hj =>
    ⟨fun d' => by simp [get_setLink, hj], by simp⟩
  refine ⟨hr.relink (fun j => by have := ho j; omega) ?_ ?_ ?_ ?_, ?_⟩
  · simp [get_setLink, hn']
  · have : ((!f.d) = f.d) ↔ False := by cases f.d <;> simp
    simp only [get_setLink, this, and_false, if_false]
    exact sf.1 _
  · rw [rd_setLink, sf.2]; exact hr.2.1
  · intro j hj hp; exact (hs j hp).trans (s2 j hj)
  · exact ht.congr (fun j hj => s2 j (by
      intro e; subst e; have := ho f.i; simp [occC] at this; omega))

/-! ## The three parts of the loop body -/

theorem setRed_same {h : Heap K} {i : Nat} {r : Bool} {j : Nat} (hj : j ≠ i) :
    Same h (setRed h i r) j := ⟨fun d => by simp, by simp [hj]⟩

/-- Changing the colour of the root. -/
theorem Rep.setRoot {h : Heap K} {q : Option Nat} {c c' : Bool} {l r : T} {i : Nat}
    (hr : Rep h q (.node c l i r)) (ho : ∀ j, (T.node c l i r).occ j ≤ 1) :
    Rep (setRed h i c') q (.node c' l i r) := by
  obtain ⟨e1, e2, e3, e4⟩ := hr
  refine ⟨e1, by simp, ?_, ?_⟩
  · rw [get_setRed]
    exact e3.congr (fun j hj => setRed_same (by
      intro e; subst e; have := ho j; simp [T.occ] at this; omega))
  · rw [get_setRed]
    exact e4.congr (fun j hj => setRed_same (by
      intro e; subst e; have := ho j; simp [T.occ] at this; omega))

theorem Rep.blk {h : Heap K} {t : T} {n : Nat} (hr : Rep h (some n) t)
    (ho : ∀ j, t.occ j ≤ 1) : Rep (setRed h n false) (some n) t.blk := by
  cases t with
  | nil => cases hr
  | node c l i r =>
    obtain rfl : n = i := by have := hr.1; simpa using this
    exact hr.setRoot ho

theorem RepC.setRed {h : Heap K} {q0 q : Option Nat} {x : List Fr} {n : Nat} {c : Bool}
    (hr : RepC h q0 x q) (ho : occC n x = 0) : RepC (setRed h n c) q0 x q :=
  hr.congr (fun j hj => setRed_same (by intro e; subst e; omega))

theorem Rep.setRed {h : Heap K} {q : Option Nat} {t : T} {n : Nat} {c : Bool}
    (hr : Rep h q t) (ho : t.occ n = 0) : Rep (setRed h n c) q t :=
  hr.congr (fun j hj => setRed_same (by intro e; subst e; omega))

theorem place_spec {h : Heap K} {e : Nat} {v : Ins} {x : List Fr} {t : T}
    (st : St h x t) (fr : Fresh h e x t) (va : Vars v x) (hv : v.node = t.root)
    (h2 : t = .nil → 2 ≤ x.length) :
    ∃ h' n, insPlace h e v = .ok (h', n) ∧ (zplace e t).root = some n ∧ St h' x (zplace e t) ∧
      (∀ j, ky h' j = ky h j) ∧ (t = .nil ↔ n = e) ∧
      (t ≠ .nil → Fresh h' e x (zplace e t)) ∧ (∀ j, j ≠ e → t.occ j + occC j x = 0 → Same h h' j) := by
  cases t with
  | nil =>
    have h2 := h2 rfl
    have hpar : ∃ f r, x = f :: r ∧ v.parent = some f.i ∧ v.dir = f.d := by
      cases x with
      | nil => exact absurd h2 (by simp)
      | cons f r =>
        cases r with
        | nil => exact absurd h2 (by simp)
        | cons g r =>
          cases r with
          | nil => exact ⟨f, [g], rfl, va.1, va.2.1⟩
          | cons g2 r => exact ⟨f, _, rfl, va.1, va.2.1⟩
    obtain ⟨f, r, rfl, hp, hd⟩ := hpar
    have occ0 := fr.occ0
    have hre : Rep h (some e) (.node true .nil e .nil) := ⟨rfl, fr.red, fr.link _, fr.link _⟩
    have hoc : ∀ j, (T.node true .nil e .nil).occ j + occC j (f :: r) ≤ 1 := by
      intro j
      have := st.occ1 j
      by_cases ej : j = e
      · subst ej; simp [T.occ] at occ0 ⊢; omega
      · simp [T.occ, ej] at this ⊢; exact this
    have rl := relink st.repC hoc (fun j _ => Same.refl h j) fr.ne hre
    refine ⟨setLink h f.i f.d (some e), e, ?_, rfl, ⟨rl.1, rl.2, hoc, st.hl⟩, by simp,
      by simp, by simp, ?_⟩
    · simp only [insPlace, show v.node = none from hv, hp, hd, deref, bind, Except.bind]
    · intro j _ hj
      refine ⟨fun d => ?_, by simp⟩
      have : j ≠ f.i := by intro e; subst e; simp [occC] at hj
      simp [get_setLink, this]
  | node c l i r =>
    have hne : i ≠ e := by
      intro e'; subst e'; have := fr.occ0; simp [T.occ] at this
    have hrep := st.rep
    obtain ⟨-, hc, hl, hr⟩ := hrep
    have rl := hl.isRed
    have rr := hr.isRed
    cases hb : (l.red && r.red) with
    | false =>
      refine ⟨h, i, ?_, ?_, ?_, by simp, by simp [hne], ?_, fun _ _ _ => Same.refl _ _⟩
      · simp only [insPlace, show v.node = some i from hv, rl, rr, hb, Bool.false_eq_true, if_false]
      · simp [zplace, hb, T.root]
      · simpa [zplace, hb] using st
      · intro _; simpa [zplace, hb] using fr
    | true =>
      have ⟨bl, br⟩ : l.red = true ∧ r.red = true := by simpa using hb
      obtain ⟨cl, ll, il, lr, rfl⟩ : ∃ a b c d, l = .node a b c d := by
        cases l with
        | nil => cases bl
        | node a b c d => exact ⟨a, b, c, d, rfl⟩
      obtain ⟨cr, rl', ir, rr', rfl⟩ : ∃ a b c d, r = .node a b c d := by
        cases r with
        | nil => cases br
        | node a b c d => exact ⟨a, b, c, d, rfl⟩
      have o1 := st.occ1
      have gl : get h i false = some il := hl.1
      have gr : get h i true = some ir := hr.1
      have d1 : i ≠ il ∧ i ≠ ir ∧ il ≠ ir := by
        refine ⟨?_, ?_, ?_⟩
        · intro e'; subst e'; have := o1 i; simp [T.occ] at this; omega
        · intro e'; subst e'; have := o1 i; simp [T.occ] at this; omega
        · intro e'; subst e'; have := o1 il; simp [T.occ] at this; omega
      have zp : zplace e (.node c (.node cl ll il lr) i (.node cr rl' ir rr')) =
          .node true (.node false ll il lr) i (.node false rl' ir rr') := by
        simp only [zplace, hb, if_true]; rfl
      have occe : ∀ j, (T.node true (.node false ll il lr) i (.node false rl' ir rr')).occ j =
          (T.node c (.node cl ll il lr) i (.node cr rl' ir rr')).occ j := by
        intro j; simp only [T.occ]
      let h1 := Rb.setRed h i true
      let h2 := Rb.setRed h1 il false
      let h3 := Rb.setRed h2 ir false
      have same : ∀ j, j ≠ i → j ≠ il → j ≠ ir → Same h h3 j := fun j a b c =>
        ((setRed_same a).trans (setRed_same b)).trans (setRed_same c)
      refine ⟨h3, i, ?_, ?_, ?_, ?_, by simp [hne], ?_, ?_⟩
      · have hcol : (isRed h (get h i false) && isRed h (get h i true)) = true := by
          rw [rl, rr]; exact hb
        simp only [insPlace, show v.node = some i from hv, hcol, if_true]
        simp only [get_setRed, gl, gr, deref, bind, Except.bind]; rfl
      · rw [zp]; rfl
      · rw [zp]
        refine ⟨?_, ⟨rfl, ?_, ?_, ?_⟩, ?_, st.hl⟩
        · refine st.repC.congr (fun j hj => same j ?_ ?_ ?_) <;>
            (intro e'; subst e'; have := o1 j; simp [T.occ] at this; omega)
        · simp [h3, h2, h1, d1]
        · have : get h3 i false = some il := by simp [h3, h2, h1, gl]
          rw [this]
          have a : Rep h1 (some il) (.node cl ll il lr) := by
            have := hl.setRed (n := i) (c := true) (by have := o1 i; simp [T.occ] at this ⊢; omega)
            rwa [gl] at this
          have b : Rep h2 (some il) (.node false ll il lr) :=
            a.setRoot (fun j => by have := o1 j; simp only [T.occ] at this ⊢; omega)
          exact b.setRed (by have := o1 ir; simp [T.occ] at this ⊢; omega)
        · have : get h3 i true = some ir := by simp [h3, h2, h1, gr]
          rw [this]
          have a : Rep h1 (some ir) (.node cr rl' ir rr') := by
            have := hr.setRed (n := i) (c := true) (by have := o1 i; simp [T.occ] at this ⊢; omega)
            rwa [gr] at this
          have b : Rep h2 (some ir) (.node cr rl' ir rr') :=
            a.setRed (by have := o1 il; simp [T.occ] at this ⊢; omega)
          exact b.setRoot (fun j => by have := o1 j; simp only [T.occ] at this ⊢; omega)
        · intro j; rw [occe]; exact o1 j
      · intro j; simp [h3, h2, h1]
      · intro _
        rw [zp]
        have oe := fr.occ0
        have se : Same h h3 e := by
          refine same e ?_ ?_ ?_ <;> (intro e'; subst e'; simp [T.occ] at oe)
        exact ⟨fr.ne, by rw [occe]; exact oe, fun d => (se.1 d).trans (fr.link d),
          se.2.trans fr.red⟩
      · intro j _ hj
        refine same j ?_ ?_ ?_ <;> (intro e'; subst e'; simp [T.occ] at hj)

theorem root_ne_zero {x : List Fr} {t : T} {n : Nat} (hl : HeadLast x)
    (o1 : ∀ j, t.occ j + occC j x ≤ 1) (hn : t.root = some n) : n ≠ 0 := by
  intro e; subst e
  have := hl.occ; have := o1 0; have := T.occ_root hn; omega

theorem fix_spec {h : Heap K} {v : Ins} {x : List Fr} {t : T} {n : Nat}
    (st : St h x t) (hn : t.root = some n) (va : Vars v x) :
    match zfix x t with
    | .error er => insFix h v n = .error er
    | .ok (x', t') => ∃ h' v', insFix h v n = .ok (h', v') ∧ St h' x' t' ∧ t'.root = some n ∧
        Post v' t' x' ∧ (∀ j, ky h' j = ky h j) ∧
        (∀ j, t'.occ j + occC j x' = t.occ j + occC j x) ∧
        (∀ j, t.occ j + occC j x = 0 → Same h h' j) := by
  have hred : isRed h (some n) = t.red := by rw [← hn]; exact st.rep.isRed
  have n0 := root_ne_zero st.hl st.occ1 hn
  cases x with
  | nil => cases va
  | cons f0 x =>
  cases x with
  | nil =>
    obtain ⟨v1, v2, v3⟩ := va
    refine ⟨h, { v with node := some n }, ?_, st, hn, Or.inl ⟨v1, v2, v3⟩, fun _ => rfl,
      fun _ => rfl, fun _ _ => Same.refl _ _⟩
    simp [insFix, v1, isRed]
  | cons f1 x =>
  have hpar : v.parent = some f0.i ∧ v.dir = f0.d := by
    cases x with
    | nil => exact ⟨va.1, va.2.1⟩
    | cons _ _ => exact ⟨va.1, va.2.1⟩
  obtain ⟨vp, vd⟩ := hpar
  have hp : isRed h (some f0.i) = f0.c := st.repC.2.1
  have gpn : get h f0.i f0.d = some n := by rw [← hn]; exact st.repC.1
  have f0t : f0.t.occ n = 0 := by
    have o := st.occ1 n; have := T.occ_root hn; simp only [occC] at o; omega
  have gpn' : get h f0.i (!f0.d) ≠ some n := by
    rw [st.repC.2.2.1.root]; intro e; have := T.occ_root e; omega
  cases hb : (t.red && f0.c) with
  | false =>
    have hz : zfix (f0 :: f1 :: x) t = .ok (f0 :: f1 :: x, t) := by
      cases x <;> simp [zfix, hb]
    rw [hz]
    refine ⟨h, { v with node := some n }, ?_, st, hn, ?_, fun _ => rfl,
      fun _ => rfl, fun _ _ => Same.refl _ _⟩
    · simp only [insFix, hred, vp, hp, hb, Bool.false_eq_true, if_false]
    · cases x with
      | nil =>
        obtain ⟨_, _, v3⟩ := va
        refine ⟨vp, ?_, fun _ => vd⟩
        rcases v3 with h3 | h3
        · exact Or.inl h3
        · exact Or.inr h3.1
      | cons f2 r =>
        obtain ⟨_, _, v3, v4, _⟩ := va
        exact ⟨vp, v3, fun _ => ⟨vd, v4⟩, Or.inl v4⟩
  | true =>
    obtain ⟨htr, hf0⟩ : t.red = true ∧ f0.c = true := by simpa using hb
    cases x with
    | nil =>
      obtain ⟨_, _, v3⟩ := va
      rcases v3 with h3 | h3
      · have hd1 : f1.i = 0 ∧ f1.d = true ∧ f1.t = .nil := st.hl.2
        have gl : get h 0 false = none := by
          have := st.repC.2.2.2.2.2.1
          rw [hd1.1, hd1.2.1, hd1.2.2] at this
          exact this
        simp only [zfix, hb, if_true]
        simp only [insFix, hred, hp, hb, if_true, vp, h3.1, h3.2, deref, bind, Except.bind, gl,
          jswSingle, jswDouble]
        cases hl : v.last <;> cases hd : f0.d <;> rw [hd] at gpn gpn' <;>
          simp only [Bool.not_true, Bool.not_false] at gpn' <;> simp [gpn, gpn']
      · exact absurd h3.2.2 (by simp [hf0])
    | cons f2 r =>
      obtain ⟨_, _, v3, v4, v5⟩ := va
      obtain ⟨vl, vg⟩ := v5 hf0
      have o1 := st.occ1
      have rc := st.repC
      obtain ⟨c1, c2, c3, c4⟩ := rc
      obtain ⟨c5, c6, c7, c8⟩ := c4
      have hg1 : f2.t.occ f1.i = 0 := by
        have := o1 f1.i; simp [occC] at this; omega
      have hsub : Rep h (some f1.i) (mk f1.d f1.c (mk f0.d f0.c t f0.i f0.t) f1.i f1.t) := by
        refine rep_mk.2 ⟨rfl, c6, ?_, c7⟩
        rw [c5]
        refine rep_mk.2 ⟨rfl, c2, ?_, c3⟩
        rw [c1]; exact st.rep
      have z2 : f2.i = 0 ↔ r = [] := by
        have hl2 := st.hl.2.2
        cases r with
        | nil => simp [hl2.1]
        | cons g r => simp [hl2.1]
      have hl0 : occC 0 (f2 :: r) = 1 := by
        have := HeadLast.occ (show HeadLast (f2 :: r) from st.hl.2.2)
        have := o1 0; simp only [occC] at this ⊢; simp only [occC] at *; omega
      by_cases hdd : f0.d = f1.d
      · -- single rotation
        have hz : zfix (f0 :: f1 :: f2 :: r) t =
            .ok (⟨f0.d, false, f0.i, mk f1.d true f0.t f1.i f1.t⟩ :: f2 :: r, t) := by
          simp [zfix, htr, hf0, hdd]
        rw [hz]
        have hsub' : Rep h (some f1.i) (mk (!f1.d) f1.c f1.t f1.i (mk (!f1.d) f0.c f0.t f0.i t)) := by
          rw [mk_not, mk_not, ← hdd]; rw [← hdd] at hsub; exact hsub
        obtain ⟨h1, j1, rep1, s1, k1⟩ := jswSingle_rep hsub'
          (by intro j; have := o1 j; simp only [occC, mk_occ] at this ⊢; omega)
          (by have := o1 0; simp only [occC, mk_occ] at this hl0 ⊢; omega)
        rw [mk_not, mk_not] at rep1
        have hocc : ∀ j, (mk f1.d false t f0.i (mk f1.d true f0.t f1.i f1.t)).occ j
            + occC j (f2 :: r) ≤ 1 := by
          intro j; have := o1 j; simp only [occC, mk_occ] at this ⊢; omega
        have rl := relink (h1 := h1) c8 hocc (by
          intro j hj
          refine s1 j ?_ ?_
          · intro e; subst e; have := o1 f1.i; simp only [occC] at this hj; simp at this; omega
          · intro e; subst e; have := o1 f0.i; simp only [occC] at this hj; simp at this; omega)
          (by have := st.hl.1; exact this) rep1
        have hr2 := rep_mk.1 rl.2
        refine ⟨setLink h1 f2.i f2.d (some f0.i),
          { v with node := some n, gp := v.ggp, ggp := v.gggp }, ?_, ⟨?_, ?_, ?_, ?_⟩, hn, ?_, ?_, ?_, ?_⟩
        · have hlast : get h f0.i f1.d = some n := by rw [← hdd]; exact gpn
          simp only [insFix, hred, hp, hb, if_true, vp, v3, v4, deref, bind, Except.bind,
            hlast, vl, j1]
          rw [side_of c8 hg1]
          cases f2.d <;> rfl
        · refine ⟨?_, hr2.2.1, ?_, rl.1⟩
          · show get _ f0.i f0.d = _
            rw [hdd]; exact hr2.2.2.1.root
          · show Rep _ (get _ f0.i (!f0.d)) _
            rw [hdd]; exact hr2.2.2.2
        · have := hr2.2.2.1; rwa [this.root] at this
        · intro j; have := hocc j; simp only [occC, mk_occ] at this ⊢; omega
        · exact ⟨st.hl.1, st.hl.2.2⟩
        · cases r with
          | nil => exact ⟨vp, Or.inr (by rw [← z2.2 rfl]; exact v4), fun _ => vd⟩
          | cons f3 r =>
            have := vg f3 rfl
            exact ⟨vp, v4, fun _ => ⟨vd, this⟩, Or.inl this⟩
        · intro j; rw [ky_setLink, k1]
        · intro j; simp only [occC, mk_occ]; omega
        · intro j hj
          have : j ≠ f2.i := by intro e; subst e; simp [occC] at hj
          refine (s1 j ?_ ?_).trans ⟨fun d => by simp [get_setLink, this], by simp⟩ <;>
            (intro e; subst e; simp [occC] at hj)
      · -- double rotation
        have hd0 : f0.d = !f1.d := by
          cases e0 : f0.d <;> cases e1 : f1.d <;> simp [e0, e1] at hdd ⊢
        have hz : zfix (f0 :: f1 :: f2 :: r) t =
            .ok (f2 :: r, mk (!f1.d) false (mk (!f1.d) true f1.t f1.i (t.side (!f1.d)))
              n (mk (!f1.d) true (t.side f1.d) f0.i f0.t)) := by
          simp [zfix, htr, hf0, hdd, hn]
        rw [hz]
        have tmk := T.as_mk hn (!f1.d)
        rw [Bool.not_not] at tmk
        have to : ∀ j, t.occ j = (t.side (!f1.d)).occ j + (t.side f1.d).occ j +
            (if j = n then 1 else 0) := by
          intro j; conv => lhs; rw [tmk]
          simp only [mk_occ]
        have hsub' : Rep h (some f1.i) (mk (!f1.d) f1.c f1.t f1.i (mk (!f1.d) f0.c
            (mk (!f1.d) t.red (t.side (!f1.d)) n (t.side f1.d)) f0.i f0.t)) := by
          rw [← tmk, mk_not, ← hd0]; exact hsub
        obtain ⟨h1, j1, rep1, s1, k1⟩ := jswDouble_rep hsub'
          (by intro j; have := o1 j; have := to j; simp only [occC, mk_occ] at this ⊢
              simp only [occC] at *; omega)
          (by have := o1 0; have := to 0; simp only [occC, mk_occ] at this hl0 ⊢
              simp only [occC] at *; omega)
        have hocc : ∀ j, (mk (!f1.d) false (mk (!f1.d) true f1.t f1.i (t.side (!f1.d)))
              n (mk (!f1.d) true (t.side f1.d) f0.i f0.t)).occ j + occC j (f2 :: r) =
              t.occ j + occC j (f0 :: f1 :: f2 :: r) := by
          intro j; have := to j; simp only [occC, mk_occ] at this ⊢; omega
        have rl := relink (h1 := h1) c8 (fun j => by rw [hocc]; exact o1 j) (by
          intro j hj
          refine s1 j ?_ ?_ ?_
          · intro e; subst e; have := o1 f1.i; simp only [occC] at this hj; simp at this; omega
          · intro e; subst e; have := o1 f0.i; simp only [occC] at this hj; simp at this; omega
          · intro e; subst e; have := o1 j; have := T.occ_root hn; simp only [occC] at *; omega)
          n0 rep1
        refine ⟨setLink h1 f2.i f2.d (some n),
          { v with node := some n, parent := v.ggp, gp := if f2.i = HEAD then none else v.gggp,
                   ggp := none }, ?_, ⟨?_, ?_, ?_, ?_⟩, mk_root .., ?_, ?_, ?_, ?_⟩
        · have hlast : get h f0.i f1.d ≠ some n := by
            rw [hd0, Bool.not_not] at gpn'; exact gpn'
          have hlast2 : get h f0.i (!f1.d) = some n := by
            rw [← hd0]; exact gpn
          simp only [insFix, hred, hp, hb, if_true, vp, v3, v4, deref, bind, Except.bind,
            hlast, hlast2, if_false, vl, j1]
          rw [side_of c8 hg1]
          cases f2.d <;> rfl
        · rw [mk_root]; exact rl.1
        · rw [mk_root]; exact rl.2
        · intro j; rw [hocc]; exact o1 j
        · exact st.hl.2.2
        · cases r with
          | nil =>
            have := z2.2 rfl
            refine Or.inr ⟨?_, ?_, rfl, mk_red ..⟩
            · show v.ggp = _; rw [v4, this]
            · simp [this, HEAD]
          | cons f3 r =>
            have hg := vg f3 rfl
            have hne : ¬ f2.i = HEAD := by
              intro e; have := z2.1 e; cases this
            cases r with
            | nil =>
              have f30 : f3.i = 0 := st.hl.2.2.2.1
              refine ⟨v4, Or.inr ?_, ?_⟩
              · simp only [hne, if_false]; rw [hg, f30]
              · simp
            | cons f4 r =>
              refine ⟨v4, ?_, ?_, Or.inr rfl⟩
              · simp only [hne, if_false]; exact hg
              · simp
        · intro j; rw [ky_setLink, k1]
        · exact hocc
        · intro j hj
          have h2 : j ≠ f2.i := by intro e; subst e; simp [occC] at hj
          refine (s1 j ?_ ?_ ?_).trans ⟨fun d => by simp [get_setLink, h2], by simp⟩
          · intro e; subst e; simp [occC] at hj
          · intro e; subst e; simp [occC] at hj
          · intro e; subst e; have := T.occ_root hn; omega

theorem down_spec {o : NameOrd K} {h : Heap K} {e : Nat} {v : Ins} {x : List Fr} {t : T} {n : Nat}
    (st : St h x t) (hn : t.root = some n) (po : Post v t x) (lt : Nat → Bool)
    (hlt : lt n = o.lt (ky h e) (ky h n)) :
    ∃ v', insDown o h e n v = .ok v' ∧ v'.node = (t.side (!lt n)).root ∧
      Vars v' (down t (!lt n) :: x) ∧ St h (down t (!lt n) :: x) (t.side (!lt n)) := by
  let d := !lt n
  have tmk := T.as_mk hn d
  have n0 := root_ne_zero st.hl st.occ1 hn
  have rt : Rep h (some n) (mk d t.red (t.side d) n (t.side (!d))) := by
    rw [← tmk, ← hn]; exact st.rep
  obtain ⟨-, r1, r2, r3⟩ := rep_mk.1 rt
  have to : ∀ j, t.occ j = (t.side d).occ j + (t.side (!d)).occ j + (if j = n then 1 else 0) := by
    intro j; conv => lhs; rw [tmk]
    simp only [mk_occ]
  have hdown : down t d = ⟨d, t.red, n, t.side (!d)⟩ := by simp [down, hn]
  have hst : St h (down t d :: x) (t.side d) := by
    rw [hdown]
    refine ⟨⟨r2.root, r1, r3, ?_⟩, ?_, ?_, ?_⟩
    · rw [← hn]; exact st.repC
    · have := r2; rwa [r2.root] at this
    · intro j; have := st.occ1 j; have := to j; simp only [occC]; omega
    · cases x with
      | nil => exact absurd st.hl (by simp [HeadLast])
      | cons f r => exact ⟨n0, st.hl⟩
  have hdir : (!(o.lt (h.ent e).key (h.ent n).key)) = d := by
    show _ = !lt n
    rw [hlt]; rfl
  have hp1 : isParentOf h n (get h n d) = true := by
    unfold isParentOf; cases d <;> simp
  have hpar : ∀ (f : Fr) (r : List Fr) (m : Option Nat), RepC h (some 0) (f :: r) m →
      isParentOf h f.i m = true := by
    intro f r m hr
    have := hr.1
    unfold isParentOf
    cases hd : f.d <;> rw [hd] at this <;> simp [this]
  have rc := st.repC
  rw [hn] at rc
  suffices hs : ∃ v', insDown o h e n v = .ok v' ∧ v'.node = get h n d ∧
      Vars v' (down t d :: x) by
    obtain ⟨v', h1, h2, h3⟩ := hs
    exact ⟨v', h1, by rw [h2]; exact r2.root, h3, hst⟩
  rw [hdown]
  simp only [insDown, hdir]
  cases x with
  | nil => exact absurd st.hl (by simp [HeadLast])
  | cons f0 x =>
  cases x with
  | nil =>
    have hd0 : f0.i = 0 ∧ f0.d = true ∧ f0.t = .nil := st.hl
    rcases po with ⟨p1, p2, p3⟩ | ⟨p1, p2, p3, p4⟩
    · have hg : isParentOf h 0 none = true := by
        have := rc.2.2.1
        rw [hd0.1, hd0.2.1, hd0.2.2] at this
        have : get h 0 false = none := this
        simp [isParentOf, this]
      simp only [assertParent, p1, p2, p3, hp1, hg, if_true, Option.isSome, bind, Except.bind,
        Bool.false_eq_true, if_false]
      exact ⟨_, rfl, rfl, rfl, rfl, Or.inl ⟨rfl, rfl⟩⟩
    · have hg : isParentOf h 0 (some n) = true := by
        have := hpar f0 [] (some n) rc; rwa [hd0.1] at this
      simp only [assertParent, p1, p2, p3, hp1, hg, if_true, Option.isSome, bind, Except.bind,
        Bool.false_eq_true, if_false]
      exact ⟨_, rfl, rfl, rfl, rfl, Or.inr ⟨rfl, rfl, p4⟩⟩
  | cons f1 x =>
  have a0 := hpar f0 _ (some n) rc
  have a1 := hpar f1 _ (some f0.i) rc.2.2.2
  cases x with
  | nil =>
    have hd1 : f1.i = 0 ∧ f1.d = true ∧ f1.t = .nil := st.hl.2
    obtain ⟨p1, p2, p3⟩ := po
    rw [hd1.1] at a1
    rcases p2 with ⟨p2, p4⟩ | p2
    · simp only [assertParent, p1, p2, p4, hp1, a0, a1, if_true, Option.isSome, bind, Except.bind,
        Bool.false_eq_true, if_false]
      exact ⟨_, rfl, rfl, rfl, rfl, rfl, by rw [hd1.1], fun hc => ⟨p3 hc, by simp⟩⟩
    · simp only [assertParent, p1, p2, hp1, a0, a1, if_true, Option.isSome, bind, Except.bind]
      exact ⟨_, rfl, rfl, rfl, rfl, rfl, by rw [hd1.1], fun hc => ⟨p3 hc, by simp⟩⟩
  | cons f2 r =>
    obtain ⟨p1, p2, p3, p4⟩ := po
    simp only [assertParent, p1, p2, hp1, a0, a1, if_true, Option.isSome, bind, Except.bind]
    refine ⟨_, rfl, rfl, rfl, rfl, rfl, rfl, fun hc => ⟨(p3 hc).1, ?_⟩⟩
    intro f3 h3
    simp only [List.head?_cons, Option.some.injEq] at h3
    subst h3
    simp [(p3 hc).2]

/-- The loop of `insert` does the steps of `zloop`. -/
theorem loop_spec {o : NameOrd K} {e : Nat} {lt : Nat → Bool} : ∀ (k : Nat) {h : Heap K} {v : Ins}
    {x : List Fr} {t : T}, St h x t → Fresh h e x t → Vars v x → v.node = t.root →
    (t = .nil → 2 ≤ x.length) → (∀ j, j ≠ 0 → lt j = o.lt (ky h e) (ky h j)) →
    match zloop lt e k x t with
    | .error er => insLoop o e k h v = .error er
    | .ok t' => ∃ h', insLoop o e k h v = .ok h' ∧ Rep h' (some 0) t' ∧ (∀ j, ky h' j = ky h j) ∧
        (∀ j, t'.occ j = t.occ j + occC j x + (if j = e then 1 else 0)) ∧
        (∀ j, j ≠ e → t.occ j + occC j x = 0 → Same h h' j)
  | 0, _, _, _, _, _, _, _, _, _, _ => by simp [zloop, insLoop]
  | k + 1, h, v, x, t, st, fr, va, hv, h2, hlt => by
    obtain ⟨h1, n, e1, hn, st1, k1, hne, fr1, s1⟩ := place_spec st fr va hv h2
    have fs := fix_spec st1 hn va
    have occp : ∀ j, (zplace e t).occ j = t.occ j + (if t = .nil ∧ j = e then 1 else 0) := by
      intro j
      cases t with
      | nil => simp [zplace, T.occ]
      | node c l i r =>
        simp only [zplace]
        split <;> simp [T.occ, T.blk_occ]
    simp only [zloop, insLoop, e1, bind, Except.bind]
    cases hz : zfix x (zplace e t) with
    | error er =>
      rw [hz] at fs
      simp only [fs]
    | ok p =>
      obtain ⟨x', t'⟩ := p
      rw [hz] at fs
      obtain ⟨h2', v', e2, st2, hn2, po, k2, oc, s2⟩ := fs
      simp only [e2]
      by_cases htn : t = .nil
      · have hne' := hne.1 htn
        rw [if_pos htn, if_pos hne']
        refine ⟨h2', rfl, rep_plug.2 ⟨_, st2.repC, st2.rep⟩, fun j => (k2 j).trans (k1 j), ?_, ?_⟩
        · intro j
          rw [plug_occ, oc, occp]
          simp only [htn, true_and]; omega
        · intro j hj ho
          exact (s1 j hj ho).trans (s2 j (by rw [occp]; simp [hj]; omega))
      · have hne' : n ≠ e := fun h => htn (hne.2 h)
        rw [if_neg htn, if_neg hne']
        simp only [hn2, Option.getD]
        have n0 := root_ne_zero st2.hl st2.occ1 hn2
        obtain ⟨v3, e3, hv3, va3, st3⟩ := down_spec (o := o) (e := e) st2 hn2 po lt
          (by rw [hlt n n0, k2, k1, k2, k1])
        simp only [e3]
        have fr1' := fr1 htn
        have se : Same h1 h2' e := s2 e fr1'.occ0
        have oc3 : ∀ j, (t'.side (!lt n)).occ j + occC j (down t' (!lt n) :: x') =
            t.occ j + occC j x := by
          intro j
          have a := oc j
          rw [occp] at a
          simp only [htn, false_and, if_false] at a
          have tmk := T.as_mk hn2 (!lt n)
          have : t'.occ j = (t'.side (!lt n)).occ j + (t'.side (!!lt n)).occ j +
              (if j = n then 1 else 0) := by
            conv => lhs; rw [tmk]
            simp only [mk_occ]
          simp only [occC, down, hn2, Option.getD]
          omega
        have ih := loop_spec (o := o) (lt := lt) (e := e) k st3
          ⟨fr1'.ne, by rw [oc3]; exact fr.occ0, fun d => (se.1 d).trans (fr1'.link d),
            se.2.trans fr1'.red⟩ va3 hv3
          (by intro _
              have := st2.hl
              cases x' with
              | nil => cases this
              | cons a b => simp) (fun j hj => by rw [hlt j hj, k2, k1, k2, k1])
        cases hzl : zloop lt e k (down t' (!lt n) :: x') (t'.side (!lt n)) with
        | error er => rw [hzl] at ih; exact ih
        | ok t4 =>
          rw [hzl] at ih
          obtain ⟨h4, e4, r4, k4, o4, s4⟩ := ih
          refine ⟨h4, e4, r4, fun j => (k4 j).trans ((k2 j).trans (k1 j)), ?_, ?_⟩
          · intro j; rw [o4, oc3]
          · intro j hj ho
            exact ((s1 j hj ho).trans (s2 j (by rw [occp]; simp [hj]; omega))).trans
              (s4 j hj (by rw [oc3]; exact ho))

end Verif.Rb
