import Verif.Lemmas.RbIns2
/-!
# `pop` on represented trees
-/
namespace Verif.Rb
variable {K : Type}

/-- The colour of the root set to red. -/
def T.rdn : T → T
  | .nil => .nil
  | .node _ l i r => .node true l i r

theorem T.rdn_occ (t : T) (j : Nat) : t.rdn.occ j = t.occ j := by cases t <;> rfl
theorem T.rdn_root (t : T) : t.rdn.root = t.root := by cases t <;> rfl
theorem T.rdn_ids (t : T) : t.rdn.ids = t.ids := by cases t <;> rfl
theorem T.rdn_side (t : T) (d : Bool) : t.rdn.side d = t.side d := by cases t <;> rfl
theorem T.rdn_mk (d c : Bool) (a b : T) (i : Nat) : (mk d c a i b).rdn = mk d true a i b := by
  cases d <;> rfl
theorem T.blk_mk (d c : Bool) (a b : T) (i : Nat) : (mk d c a i b).blk = mk d false a i b := by
  cases d <;> rfl

theorem Rep.rdn {h : Heap K} {t : T} {n : Nat} (hr : Rep h (some n) t)
    (ho : ∀ j, t.occ j ≤ 1) : Rep (Rb.setRed h n true) (some n) t.rdn := by
  cases t with
  | nil => cases hr
  | node c l i r =>
    obtain rfl : n = i := by have := hr.1; simpa using this
    exact hr.setRoot ho

/-- The recolouring after a rotation (cfb.py:937-940). -/
theorem recolor {h : Heap K} {l c1 c2 : Bool} {t b Q : T} {n p m q : Nat} {x1 x2 : Nat}
    (hr : Rep h (some m) (mk l c1 (mk l c2 t p b) m Q)) (hn : t.root = some n)
    (hq : Q.root = some q) (ho : ∀ j, (mk l c1 (mk l c2 t p b) m Q).occ j ≤ 1)
    (h1 : get h m false = some x1) (h2 : get h m true = some x2) :
    Rep (setRed (setRed (setRed (setRed h n true) m true) x1 false) x2 false) (some m)
        (mk l true (mk l false t.rdn p b) m Q.blk) ∧
      (∀ j, j ≠ n → j ≠ m → j ≠ p → j ≠ q →
        Same h (setRed (setRed (setRed (setRed h n true) m true) x1 false) x2 false) j) := by
  obtain ⟨-, e1, e2, e3⟩ := rep_mk.1 hr
  obtain ⟨g1, e4, e5, e6⟩ := rep_mk.1 e2
  have g2 := e3.root
  rw [hq] at g2
  simp only [mk_occ] at ho
  have on := T.occ_root hn
  have oq := T.occ_root hq
  have dn : n ≠ m ∧ n ≠ p ∧ n ≠ q ∧ m ≠ p ∧ m ≠ q ∧ p ≠ q := by
    refine ⟨?_, ?_, ?_, ?_, ?_, ?_⟩
    · intro e; subst e; have := ho n; simp at this; omega
    · intro e; subst e; have := ho n; simp at this; omega
    · intro e; subst e; have := ho n; omega
    · intro e; subst e; have := ho m; simp at this
    · intro e; subst e; have := ho m; simp at this; omega
    · intro e; subst e; have := ho p; simp at this; omega
  obtain ⟨d1, d2, d3, d4, d5, d6⟩ := dn
  -- the same heap with the colours set in another order
  have hset : (x1 = p ∧ x2 = q) ∨ (x1 = q ∧ x2 = p) := by
    cases l
    · left
      constructor
      · rw [h1] at g1; simpa using g1
      · have g2 : get h m true = some q := g2
        rw [h2] at g2; simpa using g2
    · right
      constructor
      · have g2 : get h m false = some q := g2
        rw [h1] at g2; simpa using g2
      · rw [h2] at g1; simpa using g1
  let h5 := setRed (setRed (setRed (setRed h n true) m true) x1 false) x2 false
  have hg : ∀ j d, get h5 j d = get h j d := by intro j d; simp [h5]
  have hrd : ∀ j, rd h5 j = if j = p ∨ j = q then false else if j = m then true
      else if j = n then true else rd h j := by
    intro j
    simp only [h5, rd_setRed]
    rcases hset with ⟨rfl, rfl⟩ | ⟨rfl, rfl⟩ <;> by_cases a : j = x1 <;> by_cases b : j = x2 <;> simp [a, b]
  have same : ∀ j, j ≠ n → j ≠ m → j ≠ p → j ≠ q → Same h h5 j := by
    intro j a b c d
    exact ⟨fun d => hg j d, by rw [hrd]; simp [a, b, c, d]⟩
  refine ⟨?_, same⟩
  show Rep h5 _ _
  have recol : ∀ (u : T) (w : Nat), u.root = some w → Rep h (some w) u → (∀ j, u.occ j ≤ 1) →
      (∀ j, 0 < u.occ j → j ≠ w → Same h h5 j) →
      Rep h5 (some w) (if rd h5 w then u.rdn else u.blk) := by
    intro u w hw hu ho hs
    cases u with
    | nil => cases hw
    | node c' l' i' r' =>
      obtain rfl : w = i' := by have := hw; simpa [T.root] using this.symm
      obtain ⟨-, u1, u2, u3⟩ := hu
      have u2' : Rep h5 (get h w false) l' := u2.congr (fun j hj => hs j (by
        simp only [T.occ]; omega) (by intro e; subst e; have := ho j; simp [T.occ] at this; omega))
      have u3' : Rep h5 (get h w true) r' := u3.congr (fun j hj => hs j (by
        simp only [T.occ]; omega) (by intro e; subst e; have := ho j; simp [T.occ] at this; omega))
      cases hb : rd h5 w
      · exact ⟨rfl, hb, by rw [hg]; exact u2', by rw [hg]; exact u3'⟩
      · exact ⟨rfl, hb, by rw [hg]; exact u2', by rw [hg]; exact u3'⟩
  have rn : rd h5 n = true := by rw [hrd]; simp [d1, d2, d3]
  have rq : rd h5 q = false := by rw [hrd]; simp
  have rt : Rep h5 (some n) t.rdn := by
    have := recol t n hn (by have := e5; rwa [e5.root, hn] at this)
      (fun j => by have := ho j; omega) (fun j hj hne => same j hne
        (by intro e; subst e; have := ho j; simp at this; omega)
        (by intro e; subst e; have := ho j; simp at this; omega)
        (by intro e; subst e; have := ho j; omega))
    rwa [rn] at this
  have rQ : Rep h5 (some q) Q.blk := by
    have := recol Q q hq (by have := e3; rwa [e3.root, hq] at this)
      (fun j => by have := ho j; omega) (fun j hj hne => same j
        (by intro e; subst e; have := ho j; omega)
        (by intro e; subst e; have := ho j; simp at this; omega)
        (by intro e; subst e; have := ho j; simp at this; omega) hne)
    rwa [rq] at this
  refine rep_mk.2 ⟨rfl, by rw [hrd]; simp [d4, d5], ?_, ?_⟩
  · rw [hg, g1]
    refine rep_mk.2 ⟨rfl, by rw [hrd]; simp, ?_, ?_⟩
    · rw [hg, e5.root, hn]; exact rt
    · rw [hg]
      exact e6.congr (fun j hj => same j
        (by intro e; subst e; have := ho j; omega)
        (by intro e; subst e; have := ho j; simp at this; omega)
        (by intro e; subst e; have := ho j; simp at this; omega)
        (by intro e; subst e; have := ho j; omega))
  · rw [hg, g2]; exact rQ

/-- After rotating at the parent: link the new root, recolour. -/
theorem push_rot {h h1 : Heap K} {f0 f1 : Fr} {r : List Fr} {t b Q : T} {n m q : Nat}
    (st : St h (f0 :: f1 :: r) t) (hn : t.root = some n) (hq : Q.root = some q)
    (rep1 : Rep h1 (some m) (mk f0.d false (mk f0.d true t f0.i b) m Q))
    (hocc : ∀ j, b.occ j + Q.occ j + (if j = m then 1 else 0) = f0.t.occ j)
    (s1 : ∀ j, j ≠ f0.i → f0.t.occ j = 0 → Same h h1 j) (k1 : ∀ j, ky h1 j = ky h j) :
    ∃ x1 x2, get (setLink h1 f1.i f1.d (some m)) f1.i f1.d = some m ∧
      get (setLink h1 f1.i f1.d (some m)) m false = some x1 ∧
      get (setLink h1 f1.i f1.d (some m)) m true = some x2 ∧
      St (setRed (setRed (setRed (setRed (setLink h1 f1.i f1.d (some m)) n true) m true) x1 false)
          x2 false) (⟨f0.d, false, f0.i, b⟩ :: ⟨f0.d, true, m, Q.blk⟩ :: f1 :: r) t.rdn ∧
      isParentOf (setRed (setRed (setRed (setRed (setLink h1 f1.i f1.d (some m)) n true) m true) x1
          false) x2 false) f0.i (some n) = true ∧
      (∀ j, ky (setRed (setRed (setRed (setRed (setLink h1 f1.i f1.d (some m)) n true) m true) x1
          false) x2 false) j = ky h j) ∧
      (∀ j, t.occ j + occC j (f0 :: f1 :: r) = 0 → Same h (setRed (setRed (setRed (setRed
          (setLink h1 f1.i f1.d (some m)) n true) m true) x1 false) x2 false) j) := by
  have o1 := st.occ1
  have on := T.occ_root hn
  have oq := T.occ_root hq
  have hl0 : t.occ 0 = 0 ∧ f0.t.occ 0 = 0 := by
    have := HeadLast.occ (show HeadLast (f1 :: r) from st.hl.2)
    have := o1 0; simp only [occC] at *; omega
  have m0 : m ≠ 0 := by
    intro e; subst e; have := hocc 0; simp at this; omega
  have hoc2 : ∀ j, (mk f0.d false (mk f0.d true t f0.i b) m Q).occ j + occC j (f1 :: r)
      = t.occ j + occC j (f0 :: f1 :: r) := by
    intro j; have := hocc j; simp only [mk_occ, occC]; omega
  have rl := relink (h1 := h1) (st.repC.2.2.2) (fun j => by rw [hoc2]; exact o1 j)
    (by
      intro j hj
      refine s1 j ?_ ?_
      · intro e; subst e; have := o1 f0.i; simp only [occC] at *; simp at this; omega
      · have := o1 j; simp only [occC] at *; omega) m0 rep1
  obtain ⟨rl1, rl2⟩ := rl
  have oc3 : ∀ j, (mk f0.d false (mk f0.d true t f0.i b) m Q).occ j ≤ 1 := by
    intro j; have := hoc2 j; have := o1 j; omega
  obtain ⟨-, e1, e2, e3⟩ := rep_mk.1 rl2
  have g1 := e2.root
  have g2 := e3.root
  rw [mk_root] at g1
  rw [hq] at g2
  obtain ⟨x1, x2, hx1, hx2⟩ : ∃ x1 x2, get (setLink h1 f1.i f1.d (some m)) m false = some x1 ∧
      get (setLink h1 f1.i f1.d (some m)) m true = some x2 := by
    cases hd : f0.d
    · rw [hd] at g1 g2; exact ⟨_, _, g1, g2⟩
    · rw [hd] at g1 g2; exact ⟨_, _, g2, g1⟩
  have rcl := recolor rl2 hn hq oc3 hx1 hx2
  refine ⟨x1, x2, rl1.1, hx1, hx2, ?_⟩
  revert rcl
  generalize hh5 : setRed (setRed (setRed (setRed (setLink h1 f1.i f1.d (some m)) n true) m true) x1
          false) x2 false = h5
  intro rcl
  obtain ⟨p1, p2⟩ := rcl
  obtain ⟨-, w1, w2, w3⟩ := rep_mk.1 p1
  obtain ⟨w4, w5, w6, w7⟩ := rep_mk.1 w2
  have sC : ∀ j, 0 < occC j (f1 :: r) → Same (setLink h1 f1.i f1.d (some m)) h5 j := by
    intro j hj
    have a := o1 j; have a2 := hoc2 j
    simp only [mk_occ] at a2
    refine p2 j ?_ ?_ ?_ ?_
    · intro e; subst e; omega
    · intro e; subst e; simp at a2; omega
    · intro e; subst e; simp at a2; omega
    · intro e; subst e; omega
  refine ⟨⟨⟨?_, w5, w7, w4, w1, w3, ?_⟩, ?_, ?_, ?_⟩, ?_, ?_, ?_⟩
  · exact w6.root
  · exact rl1.congr sC
  · have := w6; rwa [w6.root] at this
  · intro j
    have a := o1 j; have a2 := hoc2 j
    simp only [mk_occ, occC, T.rdn_occ, T.blk_occ] at *
    omega
  · exact ⟨st.hl.1, m0, st.hl.2⟩
  · have := w6.root
    rw [T.rdn_root, hn] at this
    show isParentOf h5 f0.i (some n) = true
    unfold isParentOf
    cases hd : f0.d <;> rw [hd] at this <;> simp [this]
  · intro j
    rw [← hh5]
    simp [k1]
  · intro j hj
    simp only [occC] at hj
    have a := hocc j
    have f1n : j ≠ f1.i := by intro e; subst e; simp at hj
    refine ((s1 j (by intro e; subst e; simp at hj) (by omega)).trans
      (show Same h1 (setLink h1 f1.i f1.d (some m)) j from
        ⟨fun d => by simp [get_setLink, f1n], by simp⟩)).trans ?_
    refine p2 j ?_ ?_ ?_ ?_
    · intro e; subst e; omega
    · intro e; subst e; simp at a; omega
    · intro e; subst e; simp at hj
    · intro e; subst e; omega

/-! ## Order -/

/-- The names before `e` are at the front. -/
def Down (gt : Nat → Bool) (l : List Nat) : Prop :=
  l.Pairwise fun i j => gt j = true → gt i = true

theorem down_frame {gt : Nat → Bool} {f : Fr} {x : List Fr} {t : T}
    (hm : Down gt (plug (f :: x) t).ids) (hf : f.d = gt f.i) : ∀ j ∈ f.t.ids, gt j = f.d := by
  intro j hj
  rw [plug_ids] at hm
  cases hd : f.d with
  | true =>
    have h1 : Down gt (f.t.ids ++ [f.i]) := by
      refine List.Pairwise.sublist ?_ hm
      simp only [lft, hd, if_true]
      refine List.Sublist.trans ?_ (List.sublist_append_left _ _)
      refine List.Sublist.trans ?_ (List.sublist_append_left _ _)
      exact List.sublist_append_right _ _
    exact (List.pairwise_append.1 h1).2.2 j hj f.i (by simp) (by rw [← hf, hd])
  | false =>
    have h1 : Down gt (f.i :: f.t.ids) := by
      refine List.Pairwise.sublist ?_ hm
      simp only [rgt, hd, Bool.false_eq_true, if_false]
      refine List.Sublist.trans ?_ (List.sublist_append_right _ _)
      exact List.sublist_append_left _ _
    cases hj' : gt j with
    | false => rfl
    | true =>
      have := (List.pairwise_cons.1 h1).1 j hj hj'
      rw [← hf, hd] at this; exact this.symm

/-- The shapes of the path after pushing a red node down. -/
def Shape (d : Bool) (f0 : Fr) (x x' : List Fr) : Prop :=
  (∃ f0', f0'.i = f0.i ∧ x' = f0' :: x) ∨ (∃ s, x' = s :: f0 :: x) ∨
  (d = f0.d ∧ ∃ f1 r f0' m, x = f1 :: r ∧ f0'.i = f0.i ∧ x' = f0' :: m :: f1 :: r)

/-- Names of the entries of the tree: different entries have different names. -/
def Distinct (o : NameOrd K) (h : Heap K) (l : List Nat) : Prop :=
  ∀ i ∈ l, ∀ j ∈ l, i ≠ 0 → j ≠ 0 → (o.eq (ky h i) (ky h j) = true ↔ i = j)

theorem push_spec {o : NameOrd K} {h : Heap K} {v : Pop} {f0 : Fr} {x : List Fr} {t : T} {n : Nat}
    {gt : Nat → Bool} (st : St h (f0 :: x) t) (hn : t.root = some n) (hv : v.node = n)
    (hvp : v.parent = some f0.i) (hgp : v.gp = x.head?.map (·.i)) (hlast : v.last = f0.d)
    (hdir : v.dir = gt n) (hm : Down gt (plug (f0 :: x) t).ids) (hfr : ∀ f ∈ f0 :: x, f.d = gt f.i)
    (hdis : Distinct o h (plug (f0 :: x) t).ids) :
    ∃ h' x' t', popPush o h v f0.i = .ok (h', { v with parent := x'.head?.map (·.i) }) ∧
      St h' x' t' ∧ t'.root = some n ∧ t'.side (gt n) = t.side (gt n) ∧
      (∀ j, ky h' j = ky h j) ∧ (plug x' t').ids = (plug (f0 :: x) t).ids ∧
      (∀ f ∈ x', f.d = gt f.i) ∧ Shape (gt n) f0 x x' ∧
      (∀ j, t.occ j + occC j (f0 :: x) = 0 → Same h h' j) := by
  have n0 := root_ne_zero st.hl st.occ1 hn
  have o1 := st.occ1
  have on := T.occ_root hn
  let d := gt n
  have tmk := T.as_mk hn d
  have tocc : ∀ j, t.occ j = (t.side d).occ j + (t.side (!d)).occ j + (if j = n then 1 else 0) := by
    intro j; conv => lhs; rw [tmk]
    simp only [mk_occ]
  have hrep : Rep h (some n) t := by have := st.rep; rwa [hn] at this
  have hred : isRed h (some n) = t.red := hrep.isRed
  have hrm : Rep h (some n) (mk d t.red (t.side d) n (t.side (!d))) := by rw [← tmk]; exact hrep
  obtain ⟨-, r1, r2, r3⟩ := rep_mk.1 hrm
  have hs1 : redAt h n d = (t.side d).red := r2.isRed
  have hs2 : redAt h n (!d) = (t.side (!d)).red := r3.isRed
  have hdv : v.dir = d := hdir
  have veta : { v with parent := some f0.i } = v := by rw [← hvp]
  -- nothing to do
  have nothing : popPush o h v f0.i = .ok (h, v) → ∃ h' x' t', popPush o h v f0.i =
      .ok (h', { v with parent := x'.head?.map (·.i) }) ∧
      St h' x' t' ∧ t'.root = some n ∧ t'.side (gt n) = t.side (gt n) ∧
      (∀ j, ky h' j = ky h j) ∧ (plug x' t').ids = (plug (f0 :: x) t).ids ∧
      (∀ f ∈ x', f.d = gt f.i) ∧ Shape (gt n) f0 x x' ∧
      (∀ j, t.occ j + occC j (f0 :: x) = 0 → Same h h' j) := by
    intro he
    refine ⟨h, f0 :: x, t, ?_, st, hn, rfl, fun _ => rfl, rfl, hfr, Or.inl ⟨f0, rfl, rfl⟩,
      fun _ _ => Same.refl _ _⟩
    rw [he]; simp only [List.head?_cons, Option.map_some, veta]
  cases hb : (!t.red && !(t.side d).red) with
  | false =>
    apply nothing
    simp only [popPush, hv, hdv, hred, hs1, hb, Bool.false_eq_true, if_false]
  | true =>
  have ⟨tb, sb⟩ : t.red = false ∧ (t.side d).red = false := by simpa using hb
  cases hb2 : (t.side (!d)).red with
  | true =>
    -- rotate the red child up
    obtain ⟨sr, hsr⟩ : ∃ sr, (t.side (!d)).root = some sr := by
      cases hq : t.side (!d) with
      | nil => rw [hq] at hb2; cases hb2
      | node a b c e => exact ⟨c, rfl⟩
    have smk := T.as_mk hsr d
    let S := t.side (!d)
    have socc : ∀ j, S.occ j = (S.side d).occ j + (S.side (!d)).occ j + (if j = sr then 1 else 0) := by
      intro j; conv => lhs; rw [show S = _ from smk]
      simp only [mk_occ]; rfl
    have hrm2 : Rep h (some n) (mk d t.red (t.side d) n (mk d S.red (S.side d) sr (S.side (!d)))) := by
      rw [← smk]; exact hrm
    have h00 : t.occ 0 = 0 := by have := st.hl.occ; have := o1 0; omega
    obtain ⟨h1, j1, rep1, s1, k1⟩ := jswSingle_rep hrm2
      (by intro j; have a := o1 j; have b := tocc j; have c := socc j
          simp only [mk_occ]; simp only [S] at *; omega)
      (by have b := tocc 0; have c := socc 0; simp only [mk_occ]; simp only [S] at *; omega)
    have sr0 : sr ≠ 0 := by
      intro e; subst e; have c := socc 0; have b := tocc 0; simp [S] at *; omega
    have hocc : ∀ j, (mk d false (mk d true (t.side d) n (S.side d)) sr (S.side (!d))).occ j
        = t.occ j := by
      intro j; have b := tocc j; have c := socc j; simp only [mk_occ]; simp only [S] at *; omega
    have rl := relink (h1 := h1) st.repC (t' := mk d false (mk d true (t.side d) n (S.side d)) sr
        (S.side (!d))) (by intro j; rw [hocc]; exact o1 j)
      (by
        intro j hj
        refine s1 j ?_ ?_
        · intro e; subst e; have := o1 j; omega
        · intro e; subst e; have := o1 j; have b := tocc j; have c := socc j
          simp at c; simp only [S] at *; omega) sr0 rep1
    obtain ⟨-, q1, q2, q3⟩ := rep_mk.1 rl.2
    let h2 := setLink h1 f0.i f0.d (some sr)
    have hgl : get h2 f0.i f0.d = some sr := rl.1.1
    refine ⟨h2, ⟨d, false, sr, S.side (!d)⟩ :: f0 :: x, mk d true (t.side d) n (S.side d), ?_,
      ⟨?_, ?_, ?_, ?_⟩, mk_root .., mk_side .., ?_, ?_, ?_, Or.inr (Or.inl ⟨_, rfl⟩), ?_⟩
    · have hpo : isParentOf h2 sr (some n) = true := by
        have := q2.root
        rw [mk_root] at this
        have : get h2 sr d = some n := this
        unfold isParentOf
        cases hd : d <;> rw [hd] at this <;> simp [this]
      have hgl' : get (setLink h1 f0.i f0.d (some sr)) f0.i f0.d = some sr := hgl
      simp only [popPush, hv, hdv, hred, hs1, hb, if_true, hs2, hb2, j1, hlast, bind, Except.bind,
        hgl', deref]
      rw [if_pos hpo]; rfl
    · refine ⟨?_, q1, q3, rl.1⟩
      rw [mk_root]; exact q2.root.trans (mk_root ..)
    · have := q2; rwa [q2.root] at this
    · intro j; have := o1 j; have := hocc j; simp only [mk_occ, occC] at *; omega
    · exact ⟨sr0, st.hl⟩
    · intro j; rw [ky_setLink, k1]
    · simp only [plug, plug_ids]
      congr 2
      have e1 := T.side_ids hn
      have e2 := T.side_ids hsr
      simp only [mk_ids]
      show (if f0.d = true then _ else _) = (if f0.d = true then _ else _)
      have : (if d = true then (S.side (!d)).ids ++ sr :: (if d = true then (S.side d).ids ++ n :: (t.side d).ids
            else (t.side d).ids ++ n :: (S.side d).ids)
          else (if d = true then (S.side d).ids ++ n :: (t.side d).ids
            else (t.side d).ids ++ n :: (S.side d).ids) ++ sr :: (S.side (!d)).ids) = t.ids := by
        cases hd : d <;> rw [hd] at e2 <;> rw [e1] <;> simp [S, hd] at e2 ⊢ <;> rw [e2] <;> simp
      rw [this]
    · intro f hf
      rcases List.mem_cons.1 hf with rfl | hf
      · have hm' : Down gt (plug (⟨d, t.red, n, t.side (!d)⟩ :: f0 :: x) (t.side d)).ids := by
          have := plug_down hn d (f0 :: x)
          simp only [down, hn, Option.getD] at this
          rw [this]; exact hm
        have := down_frame hm' (show d = gt n from rfl) sr (by
          rw [← occ_pos]; exact T.occ_root hsr)
        exact this.symm
      · exact hfr f hf
    · intro j hj
      have h2' : j ≠ f0.i := by intro e; subst e; simp [occC] at hj
      refine (s1 j ?_ ?_).trans ⟨fun d => by simp [h2, get_setLink, h2'], by simp [h2]⟩
      · intro e; subst e; omega
      · intro e; subst e; have b := tocc j; have c := socc j
        simp at c; simp only [S] at *; omega
  | false =>
  obtain ⟨f0d, f0c, f0i, f0t⟩ := f0
  have rc := st.repC; rw [hn] at rc; obtain ⟨c1, c2, c3, c4⟩ := rc
  simp only at c1 c2 c3 c4 hlast hvp
  by_cases hdd : d = f0d
  · subst hdd
    cases hS : f0t.root with
    | none =>
      have hg : get h f0i (!d) = none := by rw [c3.root, hS]
      apply nothing
      simp only [popPush, hv, hdv, hred, hs1, hb, if_true, hs2, hb2, Bool.false_eq_true, if_false, hg]
    | some sr =>
    have hg : get h f0i (!d) = some sr := by rw [c3.root, hS]
    rw [hg] at c3
    have smk := T.as_mk hS d
    have socc : ∀ j, f0t.occ j = (f0t.side d).occ j + (f0t.side (!d)).occ j +
        (if j = sr then 1 else 0) := by
      intro j; conv => lhs; rw [smk]
      simp only [mk_occ]
    have c3' : Rep h (some sr) (mk d f0t.red (f0t.side d) sr (f0t.side (!d))) := by
      rw [← smk]; exact c3
    obtain ⟨-, y1, y2, y3⟩ := rep_mk.1 c3'
    have z1 : redAt h sr d = (f0t.side d).red := y2.isRed
    have z2 : redAt h sr (!d) = (f0t.side (!d)).red := y3.isRed
    cases hb3 : (!(f0t.side (!d)).red && !(f0t.side d).red) with
    | true =>
      -- flip
      have hne : f0i ≠ n ∧ f0i ≠ sr ∧ sr ≠ n := by
        refine ⟨?_, ?_, ?_⟩
        · intro e; subst e; have := o1 f0i; simp [occC] at this; omega
        · intro e; subst e; have := o1 f0i; have := socc f0i; simp [occC] at *; omega
        · intro e; subst e; have := o1 sr; have := socc sr; simp [occC] at *; omega
      obtain ⟨ne1, ne2, ne3⟩ := hne
      let h' := setRed (setRed (setRed h f0i false) sr true) n true
      have hg' : ∀ j d, get h' j d = get h j d := by intro j d; simp [h']
      have same : ∀ j, j ≠ f0i → j ≠ sr → j ≠ n → Same h h' j := by
        intro j a b c; exact ⟨fun d => hg' j d, by simp [h', rd_setRed, a, b, c]⟩
      have sx : ∀ j, 0 < occC j x → Same h h' j := by
        intro j hj
        have a := o1 j; have b := socc j; simp only [occC] at a
        exact same j (by intro e; subst e; simp at a; omega) (by intro e; subst e; simp at b; omega)
          (by intro e; subst e; omega)
      have rs : Rep h' (some sr) f0t.rdn := by
        rw [smk, T.rdn_mk]
        refine rep_mk.2 ⟨rfl, by simp [h', rd_setRed, ne3], ?_, ?_⟩
        · rw [hg']
          exact y2.congr (fun j hj => by
            have a := o1 j; have b := socc j; simp only [occC] at a
            exact same j (by intro e; subst e; simp at a; omega)
              (by intro e; subst e; simp at b; omega) (by intro e; subst e; omega))
        · rw [hg']
          exact y3.congr (fun j hj => by
            have a := o1 j; have b := socc j; simp only [occC] at a
            exact same j (by intro e; subst e; simp at a; omega)
              (by intro e; subst e; simp at b; omega) (by intro e; subst e; omega))
      have rt : Rep h' (some n) t.rdn := by
        rw [tmk, T.rdn_mk]
        refine rep_mk.2 ⟨rfl, by simp [h', rd_setRed], ?_, ?_⟩
        · rw [hg']
          exact r2.congr (fun j hj => by
            have a := o1 j; have b := socc j; have c := tocc j; simp only [occC] at a
            exact same j (by intro e; subst e; simp at a; omega)
              (by intro e; subst e; simp at b; omega) (by intro e; subst e; simp at c; omega))
        · rw [hg']
          exact r3.congr (fun j hj => by
            have a := o1 j; have b := socc j; have c := tocc j; simp only [occC] at a
            exact same j (by intro e; subst e; simp at a; omega)
              (by intro e; subst e; simp at b; omega) (by intro e; subst e; simp at c; omega))
      refine ⟨h', ⟨d, false, f0i, f0t.rdn⟩ :: x, t.rdn, ?_, ⟨⟨?_, ?_, ?_, ?_⟩, ?_, ?_, ?_⟩, ?_, ?_, ?_,
        ?_, ?_, Or.inl ⟨⟨d, false, f0i, f0t.rdn⟩, rfl, rfl⟩, ?_⟩
      · have hve : { v with parent := (some f0i : Option Nat) } = v := by rw [← hvp]
        simp only [List.head?_cons, Option.map_some]
        rw [hve]
        simp only [popPush, hv, hdv, hred, hs1, hb, if_true, hs2, hb2, Bool.false_eq_true, if_false,
          hg, hlast, z1, z2, hb3]
        rfl
      · rw [hg', T.rdn_root, hn]; exact c1
      · simp [h', rd_setRed, ne1, ne2]
      · rw [hg']; simp only; rw [hg]; exact rs
      · exact c4.congr sx
      · rw [T.rdn_root, hn]; exact rt
      · intro j; have := o1 j; simp only [occC, T.rdn_occ] at *; exact this
      · have := st.hl
        cases x with
        | nil => exact ⟨this.1, this.2.1, by have := this.2.2; simp only at this; rw [this]; rfl⟩
        | cons f1 r => exact this
      · rw [T.rdn_root, hn]
      · rw [T.rdn_side]
      · intro j; simp [h']
      · simp only [plug_ids, lft, rgt, T.rdn_ids]
      · intro f hf
        rcases List.mem_cons.1 hf with rfl | hf
        · exact hfr ⟨d, f0c, f0i, f0t⟩ (by simp)
        · exact hfr f (by simp [hf])
      · intro j hj
        have b := socc j; simp only [occC] at hj
        exact same j (by intro e; subst e; simp at hj) (by intro e; subst e; simp at b; omega)
          (by intro e; subst e; omega)
    | false =>
    cases x with
    | nil =>
      have := st.hl.2.2; simp only at this; rw [this] at hS; cases hS
    | cons f1 r =>
    have hgp' : v.gp = some f1.i := hgp
    have hl0 : t.occ 0 = 0 ∧ f0t.occ 0 = 0 := by
      have := HeadLast.occ (show HeadLast (f1 :: r) from st.hl.2)
      have := o1 0; simp only [occC] at *; omega
    have hmem : ∀ j, 0 < (plug (⟨d, f0c, f0i, f0t⟩ :: f1 :: r) t).occ j →
        j ∈ (plug (⟨d, f0c, f0i, f0t⟩ :: f1 :: r) t).ids := fun j hj => (occ_pos _ _).1 hj
    have pm : f0i ∈ (plug (⟨d, f0c, f0i, f0t⟩ :: f1 :: r) t).ids :=
      hmem _ (by simp [occC]; omega)
    have p0 : f0i ≠ 0 := st.hl.1
    have eq1 : eqv o h (some f0i) f0i = true := (hdis f0i pm f0i pm p0 p0).2 rfl
    have eqo : f1.d = true → eqv o h (get h f1.i false) f0i = false := by
      intro hd
      have := c4.2.2.1.root
      rw [hd] at this
      have this : get h f1.i false = f1.t.root := this
      rw [this]
      cases hr : f1.t.root with
      | none => rfl
      | some j =>
        have oj := T.occ_root hr
        have aj := o1 j
        have az := o1 0
        have aH := HeadLast.occ (show HeadLast (f1 :: r) from st.hl.2)
        have j0 : j ≠ 0 := by
          intro e; subst e
          cases r with
          | nil => have := st.hl.2.2.2; rw [this] at hr; cases hr
          | cons f2 r => 
            have := HeadLast.occ (show HeadLast (f2 :: r) from st.hl.2.2)
            simp only [occC] at *; omega
        have jm := hmem j (by simp only [plug_occ, occC]; omega)
        have jne : j ≠ f0i := by
          intro e; subst e; simp only [occC] at aj; simp at aj; omega
        have := hdis j jm f0i pm j0 p0
        show o.eq (ky h j) (ky h f0i) = false
        cases hq : o.eq (ky h j) (ky h f0i) with
        | false => rfl
        | true => exact absurd (this.1 hq) jne
    have c4l : get h f1.i f1.d = some f0i := c4.1
    have hz : Rep h (some f0i) (mk d f0c t f0i f0t) :=
      rep_mk.2 ⟨rfl, c2, by rw [c1]; exact hrep, by rw [hg]; exact c3⟩
    have hne3 : (f0t.side (!d)).red = true ∨ (f0t.side d).red = true := by
      cases h1 : (f0t.side (!d)).red <;> cases h2 : (f0t.side d).red <;> simp [h1, h2] at hb3 ⊢
    have gtm : ∀ j, 0 < f0t.occ j → d = gt j := fun j hj =>
      (down_frame hm (hfr _ (by simp)) j ((occ_pos _ _).1 hj)).symm
    have fin : ∀ (h1 : Heap K) (m q : Nat) (b Q : T),
        Q.root = some q →
        Rep h1 (some m) (mk d false (mk d true t f0i b) m Q) →
        (∀ j, b.occ j + Q.occ j + (if j = m then 1 else 0) = f0t.occ j) →
        (∀ j, j ≠ f0i → f0t.occ j = 0 → Same h h1 j) → (∀ j, ky h1 j = ky h j) →
        (if d = true then Q.ids ++ m :: b.ids else b.ids ++ m :: Q.ids) = f0t.ids →
        ((jswDouble h (some f0i) d = .ok (h1, m) ∧ (f0t.side d).red = true) ∨
          (jswSingle h (some f0i) d = .ok (h1, m) ∧ (f0t.side d).red = false)) →
        ∃ h' x' t', popPush o h v f0i =
      .ok (h', { v with parent := x'.head?.map (·.i) }) ∧
      St h' x' t' ∧ t'.root = some n ∧ t'.side (gt n) = t.side (gt n) ∧
      (∀ j, ky h' j = ky h j) ∧ (plug x' t').ids = (plug (⟨d, f0c, f0i, f0t⟩ :: f1 :: r) t).ids ∧
      (∀ f ∈ x', f.d = gt f.i) ∧ Shape (gt n) ⟨d, f0c, f0i, f0t⟩ (f1 :: r) x' ∧
      (∀ j, t.occ j + occC j (⟨d, f0c, f0i, f0t⟩ :: f1 :: r) = 0 → Same h h' j) := by
      intro h1 m q b Q hq rep1 hocc s1 k1 hids hj
      obtain ⟨x1, x2, l1, l2, l3, st', po, kk, ss⟩ := push_rot st hn hq rep1 hocc s1 k1
      simp only at st' po kk ss
      refine ⟨_, _, _, ?_, st', by rw [T.rdn_root, hn], by rw [T.rdn_side], kk, ?_, ?_,
        Or.inr (Or.inr ⟨rfl, f1, r, ⟨d, false, f0i, b⟩, ⟨d, true, m, Q.blk⟩, rfl, rfl, rfl⟩), ss⟩
      · have hve : { v with parent := (some f0i : Option Nat) } = v := by rw [← hvp]
        simp only [List.head?_cons, Option.map_some]
        rw [hve]
        simp only [popPush, hv, hdv, hred, hs1, hb, if_true, hs2, hb2, Bool.false_eq_true, if_false,
          hg, hlast, z1, z2, hb3, List.head?_cons, Option.map_some, hgp', deref, bind, Except.bind]
        cases hd1 : f1.d with
        | false =>
          rw [hd1] at c4l l1 l2 l3 po
          simp only [c4l, eq1, if_true]
          rcases hj with ⟨jj, rr⟩ | ⟨jj, rr⟩
          · simp only [rr, if_true, jj, get_setRed, l1, l2, l3, po]
          · have r2 : (f0t.side (!d)).red = true := by rcases hne3 with h | h; exact h; rw [rr] at h; cases h
            simp only [rr, r2, Bool.false_eq_true, if_false, if_true, jj, get_setRed, l1, l2, l3, po]
        | true =>
          have eqo' := eqo hd1
          rw [hd1] at c4l l1 l2 l3 po
          simp only [eqo', c4l, eq1, if_true, Bool.false_eq_true, if_false]
          rcases hj with ⟨jj, rr⟩ | ⟨jj, rr⟩
          · simp only [rr, if_true, jj, get_setRed, l1, l2, l3, po]
          · have r2 : (f0t.side (!d)).red = true := by rcases hne3 with h | h; exact h; rw [rr] at h; cases h
            simp only [rr, r2, Bool.false_eq_true, if_false, if_true, jj, get_setRed, l1, l2, l3, po]
      · simp only [plug_ids, lft, rgt, T.rdn_ids, T.blk_ids]
        rw [← hids]
        cases hd : d <;> simp
      · intro f hf
        rcases List.mem_cons.1 hf with rfl | hf
        · exact hfr ⟨d, f0c, f0i, f0t⟩ (by simp)
        · rcases List.mem_cons.1 hf with rfl | hf
          · exact gtm m (by have := hocc m; simp at this; omega)
          · exact hfr f (List.mem_cons_of_mem _ hf)
    have sids := T.side_ids hS
    cases hdr : (f0t.side d).red with
    | true =>
      obtain ⟨m, hmr⟩ : ∃ m, (f0t.side d).root = some m := by
        cases hq : f0t.side d with
        | nil => rw [hq] at hdr; cases hdr
        | node a b c e => exact ⟨c, rfl⟩
      have mmk := T.as_mk hmr d
      have mocc : ∀ j, (f0t.side d).occ j = ((f0t.side d).side d).occ j + ((f0t.side d).side (!d)).occ j +
          (if j = m then 1 else 0) := by
        intro j; conv => lhs; rw [mmk]
        simp only [mk_occ]
      have mids := T.side_ids hmr
      rw [smk, mmk] at hz
      obtain ⟨h1, j1, rep1, s1, k1⟩ := jswDouble_rep hz
        (by intro j; have a := o1 j; have b := socc j; have c := mocc j
            simp only [mk_occ]; simp only [occC] at a; omega)
        (by have a := hl0; have b := socc 0; have c := mocc 0
            have e : ¬ (0 = f0i) := fun e => p0 e.symm
            simp only [mk_occ, e, if_false]; omega)
      refine fin h1 m sr _ _ (mk_root ..) rep1 ?_ ?_ k1 ?_ (Or.inl ⟨j1, hdr⟩)
      · intro j; have b := socc j; have c := mocc j; simp only [mk_occ]; omega
      · intro j hj0 hj
        have b := socc j; have c := mocc j
        exact s1 j hj0 (by intro e; subst e; simp at b; omega) (by intro e; subst e; simp at c; omega)
      · rw [sids]
        cases hd : d <;> rw [hd] at mids <;> simp [mk_ids] at mids ⊢ <;> rw [mids] <;> simp
    | false =>
      have hdr2 : (f0t.side (!d)).red = true := by
        rcases hne3 with h | h
        · exact h
        · rw [hdr] at h; cases h
      obtain ⟨q, hq⟩ : ∃ m, (f0t.side (!d)).root = some m := by
        cases hq : f0t.side (!d) with
        | nil => rw [hq] at hdr2; cases hdr2
        | node a b c e => exact ⟨c, rfl⟩
      rw [smk] at hz
      obtain ⟨h1, j1, rep1, s1, k1⟩ := jswSingle_rep hz
        (by intro j; have a := o1 j; have b := socc j
            simp only [mk_occ]; simp only [occC] at a; omega)
        (by have a := hl0; have b := socc 0
            have e : ¬ (0 = f0i) := fun e => p0 e.symm
            simp only [mk_occ, e, if_false]; omega)
      refine fin h1 sr q _ _ hq rep1 ?_ ?_ k1 ?_ (Or.inr ⟨j1, hdr⟩)
      · intro j; have b := socc j; omega
      · intro j hj0 hj
        have b := socc j
        exact s1 j hj0 (by intro e; subst e; simp at b; omega)
      · rw [sids]
        cases hd : d <;> simp
  · -- the "sibling" is the node itself
    have hdn : (!d) = f0d := by cases hd : d <;> cases hf : f0d <;> simp [hd, hf] at hdd ⊢
    have hg : get h f0i (!d) = some n := by rw [hdn]; exact c1
    have hne : f0i ≠ n := by
      intro e; subst e; have := o1 f0i; simp [occC] at this; omega
    let h' := setRed (setRed (setRed h f0i false) n true) n true
    have hg' : ∀ j d, get h' j d = get h j d := by intro j d; simp [h']
    have same : ∀ j, j ≠ f0i → j ≠ n → Same h h' j := by
      intro j a c; exact ⟨fun d => hg' j d, by simp [h', rd_setRed, a, c]⟩
    have rt : Rep h' (some n) t.rdn := by
      rw [tmk, T.rdn_mk]
      refine rep_mk.2 ⟨rfl, by simp [h', rd_setRed], ?_, ?_⟩
      · rw [hg']
        exact r2.congr (fun j hj => by
          have a := o1 j; have c := tocc j; simp only [occC] at a
          exact same j (by intro e; subst e; simp at a; omega) (by intro e; subst e; simp at c; omega))
      · rw [hg']
        exact r3.congr (fun j hj => by
          have a := o1 j; have c := tocc j; simp only [occC] at a
          exact same j (by intro e; subst e; simp at a; omega) (by intro e; subst e; simp at c; omega))
    refine ⟨h', ⟨f0d, false, f0i, f0t⟩ :: x, t.rdn, ?_, ⟨⟨?_, ?_, ?_, ?_⟩, ?_, ?_, ?_⟩, ?_, ?_, ?_,
      ?_, ?_, Or.inl ⟨⟨f0d, false, f0i, f0t⟩, rfl, rfl⟩, ?_⟩
    · have hbb : (!redAt h n (!f0d) && !redAt h n f0d) = true := by
        rw [← hdn]; simp only [Bool.not_not, hs1, hs2, sb, hb2]; rfl
      have hve : { v with parent := (some f0i : Option Nat) } = v := by rw [← hvp]
      simp only [List.head?_cons, Option.map_some]
      rw [hve]
      simp only [popPush, hv, hdv, hred, hs1, hb, if_true, hs2, hb2, Bool.false_eq_true, if_false,
        hg, hlast, hbb, List.head?_cons, Option.map_some, hve]
      rfl
    · rw [hg', T.rdn_root, hn]; exact c1
    · simp [h', rd_setRed, hne]
    · rw [hg']
      exact c3.congr (fun j hj => by
        have a := o1 j; simp only [occC] at a
        exact same j (by intro e; subst e; simp at a; omega) (by intro e; subst e; omega))
    · exact c4.congr (fun j hj => by
        have a := o1 j; simp only [occC] at a
        exact same j (by intro e; subst e; simp at a; omega) (by intro e; subst e; omega))
    · rw [T.rdn_root, hn]; exact rt
    · intro j; have := o1 j; simp only [occC, T.rdn_occ] at *; exact this
    · have := st.hl
      cases x with
      | nil => exact this
      | cons f1 r => exact this
    · rw [T.rdn_root, hn]
    · rw [T.rdn_side]
    · intro j; simp [h']
    · simp only [plug_ids, lft, rgt, T.rdn_ids]
    · intro f hf
      rcases List.mem_cons.1 hf with rfl | hf
      · exact hfr ⟨f0d, f0c, f0i, f0t⟩ (by simp)
      · exact hfr f (by simp [hf])
    · intro j hj
      simp only [occC] at hj
      exact same j (by intro e; subst e; simp at hj) (by intro e; subst e; omega)

end Verif.Rb
