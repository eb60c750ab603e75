import Verif.Lemmas.RbIns
/-!
# Order, contents and balance of the tree after `insert`
-/
namespace Verif.Rb

/-! ## Order -/

/-- The ids left of the place a path leads to. -/
def lft : List Fr → List Nat
  | [] => []
  | f :: r => lft r ++ (if f.d then f.t.ids ++ [f.i] else [])

/-- The ids right of it. -/
def rgt : List Fr → List Nat
  | [] => []
  | f :: r => (if f.d then [] else f.i :: f.t.ids) ++ rgt r

theorem mk_ids (d c : Bool) (a b : T) (i : Nat) :
    (mk d c a i b).ids = if d then b.ids ++ i :: a.ids else a.ids ++ i :: b.ids := by
  cases d <;> rfl

theorem plug_ids : ∀ (x : List Fr) (t : T), (plug x t).ids = lft x ++ t.ids ++ rgt x
  | [], t => by simp [plug, lft, rgt]
  | f :: r, t => by
    rw [plug, plug_ids, mk_ids]
    cases hd : f.d <;> simp [lft, rgt, hd]

theorem T.blk_ids (t : T) : t.blk.ids = t.ids := by cases t <;> rfl

theorem T.side_ids {t : T} {n : Nat} (h : t.root = some n) :
    t.ids = (t.side false).ids ++ n :: (t.side true).ids := by
  cases t with
  | nil => cases h
  | node c l i r => simp only [T.root, Option.some.injEq] at h; subst h; rfl

theorem zplace_ids {e : Nat} {t : T} (h : t ≠ .nil) : (zplace e t).ids = t.ids := by
  cases t with
  | nil => exact absurd rfl h
  | node c l i r => simp only [zplace]; split <;> simp [T.ids, T.blk_ids]

theorem zplace_root {e : Nat} {t : T} {n : Nat} (h : t.root = some n) :
    (zplace e t).root = some n := by
  cases t with
  | nil => cases h
  | node c l i r => simp only [zplace]; split <;> exact h

theorem plug_down {t : T} {n : Nat} (h : t.root = some n) (d : Bool) (x : List Fr) :
    plug (down t d :: x) (t.side d) = plug x t := by
  have := T.as_mk h d
  simp only [plug, down, h, Option.getD]
  rw [← this]

/-- The repair keeps the order, the place and the id at the place. -/
theorem zfix_ids {x x' : List Fr} {t t' : T} {n : Nat} (hn : t.root = some n)
    (h : zfix x t = .ok (x', t')) :
    (plug x' t').ids = (plug x t).ids ∧ t'.root = some n ∧ (∀ f ∈ x', ∃ g ∈ x, f.i = g.i ∧ f.d = g.d) := by
  unfold zfix at h
  split at h
  · cases h; exact ⟨rfl, hn, fun f hf => ⟨f, hf, rfl, rfl⟩⟩
  · cases h; exact ⟨rfl, hn, fun f hf => ⟨f, hf, rfl, rfl⟩⟩
  · split at h
    · cases h
    · cases h; exact ⟨rfl, hn, fun f hf => ⟨f, hf, rfl, rfl⟩⟩
  · next f0 f1 f2 r =>
    split at h
    · split at h
      · next hd =>
        cases h
        refine ⟨?_, hn, ?_⟩
        · simp only [plug, plug_ids, mk_ids, hd]
          cases f1.d <;> simp
        · intro f hf
          rcases List.mem_cons.1 hf with rfl | hf
          · exact ⟨f0, by simp, rfl, rfl⟩
          · exact ⟨f, by simp at hf ⊢; simp [hf], rfl, rfl⟩
      · next hd =>
        cases h
        refine ⟨?_, by rw [mk_root, hn]; rfl, ?_⟩
        · have hd0 : f0.d = !f1.d := by
            cases e0 : f0.d <;> cases e1 : f1.d <;> simp [e0, e1] at hd ⊢
          have := T.side_ids hn
          simp only [plug, plug_ids, mk_ids, hd0, hn, Option.getD]
          cases f1.d <;> simp [this]
        · intro f hf
          exact ⟨f, by simp at hf ⊢; simp [hf], rfl, rfl⟩
    · cases h; exact ⟨rfl, hn, fun f hf => ⟨f, hf, rfl, rfl⟩⟩

/-- The new name goes to a definite place in the order. -/
def Mono (lt : Nat → Bool) (l : List Nat) : Prop :=
  l.Pairwise fun i j => lt i = true → lt j = true

theorem lft_lt {lt : Nat → Bool} : ∀ {x : List Fr} {m : List Nat}, Mono lt (lft x ++ m ++ rgt x) →
    (∀ f ∈ x, f.d = !lt f.i) → (∀ j ∈ lft x, lt j = false) ∧ (∀ j ∈ rgt x, lt j = true)
  | [], _, _, _ => by simp [lft, rgt]
  | f :: r, m, hm, hf => by
    have ff := hf f (by simp)
    have hr := fun g hg => hf g (List.mem_cons_of_mem _ hg)
    cases hd : f.d with
    | true =>
      rw [hd] at ff
      have hlf : lt f.i = false := by simpa using ff.symm
      simp only [lft, rgt, hd, if_true] at hm ⊢
      have ih := lft_lt (x := r) (m := f.t.ids ++ [f.i] ++ m) (by
        simpa [List.append_assoc] using hm) hr
      refine ⟨?_, by simpa using ih.2⟩
      intro j hj
      rcases List.mem_append.1 hj with hj | hj
      · exact ih.1 j hj
      · rcases List.mem_append.1 hj with hj | hj
        · cases hlj : lt j with
          | false => rfl
          | true =>
            have hm1 : Mono lt (f.t.ids ++ [f.i]) := by
              refine List.Pairwise.sublist ?_ hm
              refine List.Sublist.trans ?_ (List.sublist_append_left _ _)
              refine List.Sublist.trans ?_ (List.sublist_append_left _ _)
              exact List.sublist_append_right _ _
            have := (List.pairwise_append.1 hm1).2.2 j hj f.i (by simp) hlj
            rw [hlf] at this; exact this.symm
        · have : j = f.i := by simpa using hj
          rw [this]; exact hlf
    | false =>
      rw [hd] at ff
      have hlf : lt f.i = true := by simpa using ff.symm
      simp only [lft, rgt, hd, Bool.false_eq_true, if_false] at hm ⊢
      have ih := lft_lt (x := r) (m := m ++ f.i :: f.t.ids) (by
        simpa [List.append_assoc] using hm) hr
      refine ⟨by simpa using ih.1, ?_⟩
      intro j hj
      rcases List.mem_append.1 hj with hj | hj
      · rcases List.mem_cons.1 hj with rfl | hj
        · exact hlf
        · have hm1 : Mono lt (f.i :: f.t.ids) := by
            refine List.Pairwise.sublist ?_ hm
            refine List.Sublist.trans ?_ (List.sublist_append_right _ _)
            exact List.sublist_append_left _ _
          exact (List.pairwise_cons.1 hm1).1 j hj hlf
      · exact ih.2 j hj

/-- The new id is put in its place in the order, nothing else changes in the order. -/
theorem zloop_ids {lt : Nat → Bool} {e : Nat} : ∀ (k : Nat) {x : List Fr} {t t' : T},
    zloop lt e k x t = .ok t' → Mono lt (plug x t).ids → (∀ f ∈ x, f.d = !lt f.i) →
    ∃ A B, (plug x t).ids = A ++ B ∧ t'.ids = A ++ e :: B ∧ (∀ j ∈ A, lt j = false) ∧
      ∀ j ∈ B, lt j = true
  | 0, _, _, _, h, _, _ => by cases h
  | k + 1, x, t, t', h, hm, hf => by
    simp only [zloop] at h
    split at h
    · cases h
    · next x' t2 hz =>
      cases ht : t with
      | nil =>
        subst ht
        simp only [if_true] at h
        cases h
        obtain ⟨i1, i2, i3⟩ := zfix_ids rfl hz
        simp only [plug_ids] at hm
        have := lft_lt hm hf
        refine ⟨lft x, rgt x, by simp [plug_ids, T.ids], ?_, this⟩
        rw [i1, plug_ids]; simp [zplace, T.ids]
      | node c l i r =>
        have hne : t ≠ .nil := by rw [ht]; intro h; cases h
        have hrt : t.root = some i := by rw [ht]; rfl
        rw [if_neg hne] at h
        obtain ⟨i1, i2, i3⟩ := zfix_ids (zplace_root hrt) hz
        simp only [i2, Option.getD] at h
        have hp : (plug x' t2).ids = (plug x t).ids := by
          rw [i1]; simp only [plug_ids, zplace_ids hne]
        have ih := zloop_ids k h (by rw [plug_down i2, hp]; exact hm) (by
          intro f hf'
          rcases List.mem_cons.1 hf' with rfl | hf'
          · simp [down, i2]
          · obtain ⟨g, hg, e1, e2⟩ := i3 f hf'
            rw [e1, e2]; exact hf g hg)
        rw [plug_down i2, hp, ht] at ih
        exact ih

/-! ## Colours -/

/-- No red node below a red node. -/
def nr : T → Prop
  | .nil => True
  | .node c l _ r => nr l ∧ nr r ∧ (c = true → l.red = false ∧ r.red = false)

/-- Every way down has `n` black nodes. -/
def bal : T → Nat → Prop
  | .nil, n => n = 0
  | .node c l _ r, n => ∃ m, n = m + (if c then 0 else 1) ∧ bal l m ∧ bal r m

theorem nr_mk {d c : Bool} {a b : T} {i : Nat} :
    nr (mk d c a i b) ↔ nr a ∧ nr b ∧ (c = true → a.red = false ∧ b.red = false) := by
  cases d
  · simp [mk, nr]
  · simp only [mk, if_true, nr]
    constructor
    · rintro ⟨x, y, z⟩; exact ⟨y, x, fun h => ⟨(z h).2, (z h).1⟩⟩
    · rintro ⟨x, y, z⟩; exact ⟨y, x, fun h => ⟨(z h).2, (z h).1⟩⟩

theorem bal_mk {d c : Bool} {a b : T} {i n : Nat} :
    bal (mk d c a i b) n ↔ ∃ m, n = m + (if c then 0 else 1) ∧ bal a m ∧ bal b m := by
  cases d
  · simp [mk, bal]
  · simp only [mk, if_true, bal]
    constructor
    · rintro ⟨m, x, y, z⟩; exact ⟨m, x, z, y⟩
    · rintro ⟨m, x, y, z⟩; exact ⟨m, x, z, y⟩

/-- The path to a subtree of root colour `c`: no red below red.  The false root does not count. -/
def nrc : List Fr → Bool → Prop
  | [], _ => False
  | [_], _ => True
  | f :: g :: r, c => nr f.t ∧ (f.c = true → f.t.red = false ∧ c = false) ∧ nrc (g :: r) f.c

/-- The path to a subtree of black height `n`. -/
def balc : List Fr → Nat → Prop
  | [], _ => False
  | [_], _ => True
  | f :: g :: r, n => bal f.t n ∧ balc (g :: r) (n + (if f.c then 0 else 1))

/-- The path begins at the false root (without the ids on the way). -/
def HeadW : List Fr → Prop
  | [] => False
  | [f] => f.i = 0 ∧ f.d = true ∧ f.t = .nil
  | _ :: g :: r => HeadW (g :: r)

theorem HeadLast.weak : ∀ {x : List Fr}, HeadLast x → HeadW x
  | [_], h => h
  | _ :: g :: r, h => HeadLast.weak (x := g :: r) h.2

theorem plug_head : ∀ {x : List Fr} {t : T}, HeadW x → ∃ c u, plug x t = mk true c u 0 .nil
  | [], _, h => by cases h
  | [f], t, h => by
    obtain ⟨h1, h2, h3⟩ := h
    exact ⟨f.c, t, by simp [plug, h1, h2, h3]⟩
  | f :: g :: r, t, h => by
    obtain ⟨c, u, hu⟩ := plug_head (x := g :: r) (t := mk f.d f.c t f.i f.t) h
    exact ⟨c, u, by rw [plug]; exact hu⟩

theorem plug_nr : ∀ {x : List Fr} {t : T}, HeadW x → nr t → nrc x t.red →
    nr ((plug x t).side true)
  | [], _, h, _, _ => by cases h
  | [f], t, h, hn, _ => by
    obtain ⟨h1, h2, h3⟩ := h
    simp only [plug, h1, h2, h3, mk_side]; exact hn
  | f :: g :: r, t, h, hn, hc => by
    rw [plug]
    refine plug_nr (x := g :: r) h (nr_mk.2 ⟨hn, hc.1, fun e => ?_⟩) ?_
    · exact ⟨(hc.2.1 e).2, (hc.2.1 e).1⟩
    · rw [mk_red]; exact hc.2.2

theorem plug_bal : ∀ {x : List Fr} {t : T} {n : Nat}, HeadW x → bal t n → balc x n →
    ∃ m, bal ((plug x t).side true) m
  | [], _, _, h, _, _ => by cases h
  | [f], t, n, h, hn, _ => by
    obtain ⟨h1, h2, h3⟩ := h
    simp only [plug, h1, h2, h3, mk_side]; exact ⟨n, hn⟩
  | f :: g :: r, t, n, h, hn, hc => by
    rw [plug]
    exact plug_bal (x := g :: r) h (bal_mk.2 ⟨n, rfl, hn, hc.1⟩) hc.2

/-- A black node with black children. -/
def quiet (t : T) : Prop := t ≠ .nil ∧ t.red = false ∧ ∀ d, (t.side d).red = false

/-- The subtree the search goes to next. -/
def nxt (lt : Nat → Bool) (t : T) : T := t.side (!lt (t.root.getD 0))

/-- Colours and remaining count, before the loop body. -/
structure Col (lt : Nat → Bool) (k : Nat) (x : List Fr) (t : T) : Prop where
  hl : HeadW x
  nrt : nr t
  nrx : nrc x t.red
  bl : ∃ n, bal t n ∧ balc x n
  dir : ∀ f ∈ x, f.d = !lt f.i
  rootBlack : x.length = 1 → t.red = false ∧ t ≠ .nil
  /-- a red parent -/
  redP : ∀ f0 f1 r, x = f0 :: f1 :: r → f0.c = true → quiet t ∨ (f1.t.red = false ∧ r ≠ [])
  /-- a red node -/
  redN : ∀ f0 r, x = f0 :: r → t.red = true → f0.t.red = false ∨ quiet (nxt lt t)
  fuel : t.size + 1 ≤ k ∨
    (∃ f0 f1 r, x = f0 :: f1 :: r ∧ f0.c = false ∧ t ≠ .nil ∧ (nxt lt t).size + 2 ≤ k)

theorem T.side_size {t : T} {n : Nat} (h : t.root = some n) (d : Bool) :
    t.size = (t.side d).size + (t.side (!d)).size + 1 := by
  have := T.as_mk h d
  conv => lhs; rw [this]
  simp

theorem T.blk_size (t : T) : t.blk.size = t.size := by cases t <;> rfl

theorem nr_blk {t : T} (h : nr t) : nr t.blk := by
  cases t with
  | nil => exact h
  | node c l i r => exact ⟨h.1, h.2.1, by simp⟩

theorem bal_blk {t : T} {n : Nat} (h : bal t n) : ∃ m, bal t.blk m := by
  cases t with
  | nil => exact ⟨n, h⟩
  | node c l i r =>
    obtain ⟨m, _, a, b⟩ := h
    exact ⟨m + 1, m, by simp, a, b⟩

theorem nrc_black {f : Fr} {r : List Fr} {c c' : Bool} (hf : f.c = false) (h : nrc (f :: r) c) :
    nrc (f :: r) c' := by
  cases r with
  | nil => exact h
  | cons g r => exact ⟨h.1, by simp [hf], h.2.2⟩

theorem nrc_false {x : List Fr} {c : Bool} (h : nrc x c) : nrc x false := by
  match x, h with
  | [_], _ => trivial
  | f :: g :: r, h => exact ⟨h.1, fun e => ⟨(h.2.1 e).1, rfl⟩, h.2.2⟩

theorem nr_side {t : T} (h : nr t) (d : Bool) : nr (t.side d) := by
  cases t with
  | nil => trivial
  | node c l i r => cases d; exact h.1; exact h.2.1

theorem nr_side_red {t : T} (h : nr t) (hr : t.red = true) (d : Bool) : (t.side d).red = false := by
  cases t with
  | nil => cases hr
  | node c l i r => cases d; exact (h.2.2 hr).1; exact (h.2.2 hr).2

theorem bal_side {t : T} {n : Nat} (h : bal t n) (hr : t.red = true) (d : Bool) :
    bal (t.side d) n := by
  cases t with
  | nil => cases hr
  | node c l i r =>
    have hc : c = true := hr
    obtain ⟨m, e, a, b⟩ := h
    subst hc
    simp only [if_true, Nat.add_zero] at e
    subst e
    cases d; exact a; exact b

theorem bal_red_blk {t : T} {n : Nat} (hr : t.red = true) (h : bal t n) : bal t.blk (n + 1) := by
  cases t with
  | nil => cases hr
  | node c l i r =>
    have hc : c = true := hr
    subst hc
    obtain ⟨m, e, a, b⟩ := h
    simp only [if_true, Nat.add_zero] at e
    subst e
    exact ⟨n, by simp, a, b⟩

theorem quiet_blk {t : T} (h : nr t) (hr : t.red = true) : quiet t.blk := by
  refine ⟨?_, T.blk_red _, fun d => ?_⟩
  · cases t with
    | nil => cases hr
    | node => intro h; cases h
  · have := nr_side_red h hr d
    cases t with
    | nil => cases hr
    | node => exact this

/-- After a double rotation the search continues in the same subtree, one node later. -/
theorem nxt_double {lt : Nat → Bool} {f0 f1 : Fr} {u : T} {i : Nat} {c c1 c2 : Bool} (hd0 : f0.d = !f1.d)
    (d0 : f0.d = !lt f0.i) (d1 : f1.d = !lt f1.i) :
    nxt lt ((mk (!f1.d) c (mk (!f1.d) c1 f1.t f1.i (u.side (!f1.d))) i
      (mk (!f1.d) c2 (u.side f1.d) f0.i f0.t)).side (!lt i)) = u.side (!lt i) := by
  have e1 : lt f1.i = !f1.d := by rw [d1]; simp
  have e0 : lt f0.i = f1.d := by rw [d0] at hd0; simpa using hd0
  cases h : f1.d <;> cases hi : lt i <;> simp [mk, T.side, nxt, T.root, e1, e0, h]

/-- The repair on a red-black tree. -/
theorem zfix_col {f0 f1 f2 : Fr} {r : List Fr} {t : T} {m n : Nat} (hm : t.root = some m)
    (hl : HeadW (f0 :: f1 :: f2 :: r)) (hp : f0.c = true) (hu : f1.t.red = false)
    (ht : t.red = true) (nt : nr t) (nx : nrc (f0 :: f1 :: f2 :: r) false)
    (bt : bal t n) (bx : balc (f0 :: f1 :: f2 :: r) n) :
    ∃ x' t', zfix (f0 :: f1 :: f2 :: r) t = .ok (x', t') ∧ HeadW x' ∧ nr t' ∧
      nrc x' t'.red ∧ (∃ n', bal t' n' ∧ balc x' n') ∧
      ((x' = ⟨f0.d, false, f0.i, mk f1.d true f0.t f1.i f1.t⟩ :: f2 :: r ∧ t' = t) ∨
       (f0.d = (!f1.d) ∧ x' = f2 :: r ∧
        t' = mk (!f1.d) false (mk (!f1.d) true f1.t f1.i (t.side (!f1.d))) m
          (mk (!f1.d) true (t.side f1.d) f0.i f0.t))) := by
  obtain ⟨n1, n2, n3⟩ := nx
  obtain ⟨n4, n5, n6⟩ := n3
  have hg : f1.c = false := by
    cases h : f1.c with
    | false => rfl
    | true => have := (n5 h).2; rw [hp] at this; cases this
  obtain ⟨b1, b2, b3⟩ := bx
  rw [hp] at b2 b3
  rw [hg] at b3
  simp only [if_true, Nat.add_zero, Bool.false_eq_true, if_false] at b2 b3
  by_cases hd : f0.d = f1.d
  · refine ⟨⟨f0.d, false, f0.i, mk f1.d true f0.t f1.i f1.t⟩ :: f2 :: r, t,
      by simp only [zfix, ht, hp, hd, Bool.and_self, if_true], ?_, nt, ?_, ?_,
      Or.inl ⟨rfl, rfl⟩⟩
    · exact hl
    · refine ⟨nr_mk.2 ⟨n1, n4, fun _ => ⟨(n2 hp).1, hu⟩⟩, by simp, ?_⟩
      have := n6; rw [hg] at this; exact this
    · refine ⟨n, bt, bal_mk.2 ⟨n, by simp, b1, b2⟩, ?_⟩
      simpa using b3
  · have hd0 : f0.d = !f1.d := by
      cases e0 : f0.d <;> cases e1 : f1.d <;> simp [e0, e1] at hd ⊢
    refine ⟨f2 :: r, _, by simp only [zfix, ht, hp, hd, Bool.and_self, if_true, if_false, hm,
      Option.getD], hl, ?_, ?_, ?_, Or.inr ⟨hd0, rfl, rfl⟩⟩
    · refine nr_mk.2 ⟨nr_mk.2 ⟨n4, nr_side nt _, fun _ => ⟨hu, nr_side_red nt ht _⟩⟩,
        nr_mk.2 ⟨nr_side nt _, n1, fun _ => ⟨nr_side_red nt ht _, (n2 hp).1⟩⟩, by simp⟩
    · rw [mk_red]; rw [hg] at n6; exact n6
    · refine ⟨n + 1, bal_mk.2 ⟨n, by simp, bal_mk.2 ⟨n, by simp, b2, bal_side bt ht _⟩,
        bal_mk.2 ⟨n, by simp, bal_side bt ht _, b1⟩⟩, b3⟩

theorem zfix_id {x : List Fr} {t : T}
    (h : ∀ f0 f1 r, x = f0 :: f1 :: r → t.red = true → f0.c = true → False) :
    zfix x t = .ok (x, t) := by
  match hx : x with
  | [] => rfl
  | [_] => rfl
  | [f0, g] =>
    have := h f0 g [] rfl
    simp only [zfix]
    rw [if_neg]; simpa using this
  | f0 :: f1 :: f2 :: r =>
    have := h f0 f1 (f2 :: r) rfl
    simp only [zfix]
    rw [if_neg]; simpa using this

/-- On a red-black tree the loop ends, and the tree below the false root is again red-black, but
for the colour of its root. -/
theorem zloop_col {lt : Nat → Bool} {e : Nat} : ∀ (k : Nat) {x : List Fr} {t : T}, Col lt k x t →
    ∃ t', zloop lt e k x t = .ok t' ∧ nr (t'.side true) ∧ ∃ m, bal (t'.side true) m
  | 0, x, t, hc => by
    rcases hc.fuel with h | ⟨_, _, _, _, _, _, h⟩ <;> omega
  | k + 1, x, t, hc => by
    obtain ⟨n, bt, bx⟩ := hc.bl
    cases ht : t with
    | nil =>
      subst ht
      -- the entry is put here
      have nt : nr (zplace e .nil) := ⟨trivial, trivial, fun _ => ⟨rfl, rfl⟩⟩
      have n0 : n = 0 := bt
      subst n0
      have bz : bal (zplace e .nil) 0 := ⟨0, rfl, rfl, rfl⟩
      match x, hc, bx with
      | [], hc, _ => exact absurd hc.hl (by simp [HeadW])
      | [f], hc, _ => exact absurd rfl (hc.rootBlack rfl).2
      | f0 :: f1 :: r, hc, bx =>
        cases hp : f0.c with
        | false =>
          have hz : zfix (f0 :: f1 :: r) (zplace e .nil) = .ok (f0 :: f1 :: r, zplace e .nil) :=
            zfix_id (by
              intro a b c h1 _ h3
              simp only [List.cons.injEq] at h1
              rw [← h1.1, hp] at h3; cases h3)
          simp only [zloop, hz, if_true]
          exact ⟨_, rfl, plug_nr hc.hl nt (nrc_black hp hc.nrx), plug_bal hc.hl bz bx⟩
        | true =>
          rcases hc.redP f0 f1 r rfl hp with q | ⟨hu, hr⟩
          · exact absurd rfl q.1
          · cases r with
            | nil => exact absurd rfl hr
            | cons f2 r =>
              obtain ⟨x', t', hz, hl', nt', nx', ⟨n', bt', bx'⟩, _⟩ :=
                zfix_col (t := zplace e .nil) rfl hc.hl hp hu rfl nt (nrc_false hc.nrx) bz bx
              simp only [zloop, hz, if_true]
              exact ⟨_, rfl, plug_nr hl' nt' nx', plug_bal hl' bt' bx'⟩
    | node c l i r =>
      have hne : t ≠ .nil := by rw [ht]; intro h; cases h
      have hrt : t.root = some i := by rw [ht]; rfl
      have nt := hc.nrt
      rw [ht] at nt
      rw [← ht]
      -- what remains to be shown after the repair
      have step : ∀ x' t' (_ : zfix x (zplace e t) = .ok (x', t')) (hi : t'.root = some i)
          (_ : HeadW x') (_ : nr t') (_ : nrc x' t'.red) (_ : ∃ n, bal t' n ∧ balc x' n)
          (_ : ∀ f ∈ x', f.d = !lt f.i)
          (_ : t'.red = true → quiet (t'.side (!lt i)) ∨
            ∃ f1 f2 r, x' = f1 :: f2 :: r ∧ f1.t.red = false)
          (_ : (t'.side (!lt i)).red = true → (t'.side (!!lt i)).red = false ∨
            quiet (nxt lt (t'.side (!lt i))))
          (_ : (t'.side (!lt i)).size + 1 ≤ k ∨
            (t'.red = false ∧ t'.side (!lt i) ≠ .nil ∧
              (nxt lt (t'.side (!lt i))).size + 2 ≤ k)),
          ∃ t', zloop lt e (k + 1) x t = .ok t' ∧ nr (t'.side true) ∧ ∃ m, bal (t'.side true) m := by
        intro x' t' hz hi hl nt' nx' bl hdir h1 h2 h3
        simp only [zloop, hz, if_neg hne, hi, Option.getD]
        obtain ⟨f1, r', rfl⟩ : ∃ f1 r', x' = f1 :: r' := by
          cases x' with
          | nil => cases hl
          | cons a b => exact ⟨a, b, rfl⟩
        have tmk := T.as_mk hi (!lt i)
        obtain ⟨n', bt', bx'⟩ := bl
        have hdn : down t' (!lt i) = ⟨!lt i, t'.red, i, t'.side (!!lt i)⟩ := by
          simp [down, hi]
        have ntm := nt'
        rw [tmk] at ntm bt'
        obtain ⟨m1, m2, m3⟩ := nr_mk.1 ntm
        obtain ⟨q, q1, q2, q3⟩ := bal_mk.1 bt'
        rw [hdn]
        refine zloop_col k ⟨?_, m1, ?_, ⟨q, q2, q3, ?_⟩, ?_, by simp, ?_, ?_, ?_⟩
        · exact hl
        · refine ⟨m2, fun hr => ?_, nx'⟩
          exact ⟨(m3 hr).2, (m3 hr).1⟩
        · show balc (f1 :: r') (q + if t'.red = true then 0 else 1)
          rw [← q1]; exact bx'
        · intro f hf
          rcases List.mem_cons.1 hf with rfl | hf
          · rfl
          · exact hdir f hf
        · intro a b c he hr
          simp only [List.cons.injEq] at he
          obtain ⟨rfl, rfl, rfl⟩ := he
          rcases h1 hr with h | ⟨g1, g2, g3, h, h'⟩
          · exact Or.inl h
          · simp only [List.cons.injEq] at h
            obtain ⟨rfl, rfl⟩ := h
            exact Or.inr ⟨h', by simp⟩
        · intro a b he hr
          simp only [List.cons.injEq] at he
          obtain ⟨rfl, rfl⟩ := he
          exact h2 hr
        · rcases h3 with h | ⟨h, h', h''⟩
          · exact Or.inl h
          · exact Or.inr ⟨_, _, _, rfl, h, h', h''⟩
      cases hb : (l.red && r.red) with
      | true =>
        have ⟨bl, br⟩ : l.red = true ∧ r.red = true := by simpa using hb
        have hcb : c = false := by
          cases hcc : c with
          | false => rfl
          | true => have := (nt.2.2 hcc).1; rw [bl] at this; cases this
        have hz1 : zplace e t = .node true l.blk i r.blk := by
          rw [ht]; simp only [zplace, hb, if_true]
        have rt1 : (zplace e t).root = some i := by rw [hz1]; rfl
        have red1 : (zplace e t).red = true := by rw [hz1]; rfl
        have nt1 : nr (zplace e t) := by
          rw [hz1]; exact ⟨nr_blk nt.1, nr_blk nt.2.1, fun _ => ⟨T.blk_red _, T.blk_red _⟩⟩
        have bt1 : bal (zplace e t) n := by
          rw [ht, hcb] at bt
          obtain ⟨m, e1, e2, e3⟩ := bt
          rw [hz1]
          exact ⟨n, by simp, by rw [e1]; exact bal_red_blk bl e2, by rw [e1]; exact bal_red_blk br e3⟩
        have q1 : ∀ d, quiet ((zplace e t).side d) := by
          intro d
          rw [hz1]
          cases d
          · exact quiet_blk nt.1 bl
          · exact quiet_blk nt.2.1 br
        have sz : ∀ d, t.size ≥ ((zplace e t).side d).size + 2 := by
          intro d
          have s1 : 1 ≤ l.size := by cases l with
            | nil => cases bl
            | node => simp [T.size]
          have s2 : 1 ≤ r.size := by cases r with
            | nil => cases br
            | node => simp [T.size]
          rw [hz1, ht]
          cases d <;> simp [T.side, T.size, T.blk_size] <;> omega
        have nq : ¬ quiet t := by
          intro q; have := q.2.2 false; rw [ht] at this; simp [T.side, bl] at this
        by_cases hcase : ∃ f0 f1 f2 r', x = f0 :: f1 :: f2 :: r' ∧ f0.c = true
        · obtain ⟨f0, f1, f2, r', rfl, hp⟩ := hcase
          have hu : f1.t.red = false := by
            rcases hc.redP f0 f1 _ rfl hp with q | q
            · exact absurd q nq
            · exact q.1
          obtain ⟨x', t', hz, hl', nt', nx', bl', hor⟩ :=
            zfix_col rt1 hc.hl hp hu red1 nt1 (nrc_false hc.nrx) bt1 bx
          have fu : t.size + 1 ≤ k + 1 := by
            rcases hc.fuel with h | ⟨a, b, c', h1, h2, _⟩
            · exact h
            · simp only [List.cons.injEq] at h1
              rw [← h1.1, hp] at h2; cases h2
          rcases hor with ⟨rfl, rfl⟩ | ⟨hd0, rfl, rfl⟩
          · refine step _ _ hz rt1 hl' nt' nx' bl' ?_ (fun _ => Or.inl (q1 _)) ?_ ?_
            · intro f hf
              rcases List.mem_cons.1 hf with rfl | hf
              · exact hc.dir f0 (by simp)
              · exact hc.dir f (by simp at hf ⊢; simp [hf])
            · intro h; rw [(q1 _).2.1] at h; cases h
            · have := sz (!lt i); omega
          · have d0 := hc.dir f0 (by simp)
            have d1 := hc.dir f1 (by simp)
            refine step _ _ hz (mk_root ..) hl' nt' nx' bl' ?_ (by simp) ?_ ?_
            · intro f hf
              exact hc.dir f (by simp at hf ⊢; simp [hf])
            · intro _
              refine Or.inr ?_
              rw [nxt_double hd0 d0 d1]
              exact q1 _
            · refine Or.inr ⟨by simp, ?_, ?_⟩
              · cases hli : lt i <;> cases f1.d <;> simp [mk, T.side]
              · rw [nxt_double hd0 d0 d1]
                have := sz (!lt i); omega
        · -- no repair
          have hp0 : ∀ f0 f1 r', x = f0 :: f1 :: r' → f0.c = false := by
            intro f0 f1 r' hx
            cases h : f0.c with
            | false => rfl
            | true =>
              rcases hc.redP f0 f1 r' hx h with q | q
              · exact absurd q nq
              · cases r' with
                | nil => exact absurd rfl q.2
                | cons f2 r' => exact absurd ⟨f0, f1, f2, r', hx, h⟩ hcase
          have hz : zfix x (zplace e t) = .ok (x, zplace e t) := zfix_id (by
            intro f0 f1 r' hx _ h; rw [hp0 f0 f1 r' hx] at h; cases h)
          refine step _ _ hz rt1 hc.hl nt1 ?_ ⟨n, bt1, bx⟩ hc.dir (fun _ => Or.inl (q1 _)) ?_ ?_
          · match x, hc, hp0 with
            | [_], _, _ => trivial
            | f0 :: f1 :: r', hc, hp0 => exact nrc_black (hp0 f0 f1 r' rfl) hc.nrx
          · intro h; rw [(q1 _).2.1] at h; cases h
          · rcases hc.fuel with h | ⟨f0, f1, r', hx, h1, h2, h3⟩
            · have := sz (!lt i); left; omega
            · left
              have : (nxt lt t).size = ((zplace e t).side (!lt i)).size := by
                simp only [nxt, hrt, Option.getD, hz1]
                rw [ht]
                cases lt i <;> simp [T.side, T.blk_size]
              omega
      | false =>
        have hz1 : zplace e t = t := by
          rw [ht]; simp only [zplace, hb, Bool.false_eq_true, if_false]
        have hz : zfix x (zplace e t) = .ok (x, t) := by
          rw [hz1]
          refine zfix_id ?_
          intro f0 f1 r' hx h1 h2
          have := hc.nrx
          rw [hx] at this
          have := (this.2.1 h2).2
          rw [h1] at this; cases this
        have ntt := hc.nrt
        refine step _ _ hz hrt hc.hl ntt hc.nrx hc.bl hc.dir ?_ ?_ ?_
        · intro hr
          match x, hc with
          | [], hc => exact absurd hc.hl (by simp [HeadW])
          | [f], hc => have := (hc.rootBlack rfl).1; rw [hr] at this; cases this
          | f0 :: f1 :: r', hc =>
            rcases hc.redN f0 _ rfl hr with h | h
            · exact Or.inr ⟨f0, f1, r', rfl, h⟩
            · left; simpa [nxt, hrt] using h
        · intro hr
          left
          rw [ht] at hr ⊢
          cases hli : lt i <;> simp [hli, T.side] at hr ⊢ <;> simp [hr] at hb <;> exact hb
        · left
          rcases hc.fuel with h | ⟨f0, f1, r', hx, h1, h2, h3⟩
          · have := T.side_size hrt (!lt i); omega
          · simp only [nxt, hrt, Option.getD] at h3; omega

/-! ## Any colours -/

/-- Both children red. -/
def both (t : T) : Bool := (t.side false).red && (t.side true).red

/-- The repair right below the root does not come to a red root: if both children of the root are
red, neither of them has two red children. -/
def safe (t : T) : Prop := both t = true → ∀ d, both (t.side d) = false

def parentRed : List Fr → Bool
  | [] => false
  | [_] => false
  | f :: _ :: _ => f.c

/-- What is needed for the loop to end without an exception, whatever the colours. -/
structure Gen (lt : Nat → Bool) (k : Nat) (x : List Fr) (t : T) : Prop where
  hl : HeadW x
  dir : ∀ f ∈ x, f.d = !lt f.i
  one : x.length = 1 → t.red = false ∧ t ≠ .nil ∧ safe t
  two : ∀ f0 g, x = [f0, g] → f0.c = true → t ≠ .nil ∧ t.red = false ∧ both t = false
  fuel : 1 ≤ k ∧ (t ≠ .nil → 2 * (nxt lt t).size + 2 + (if parentRed x then 1 else 0) ≤ k)

theorem zplace_eq {e : Nat} {t : T} (h : t ≠ .nil) (hb : both t = false) : zplace e t = t := by
  cases t with
  | nil => exact absurd rfl h
  | node c l i r =>
    have : (l.red && r.red) = false := hb
    simp [zplace, this]

theorem zplace_side {e : Nat} {t : T} (h : t ≠ .nil) (d : Bool) :
    ((zplace e t).side d).size = (t.side d).size ∧
    ((both t = true → (zplace e t).side d = (t.side d).blk ∧ (zplace e t).red = true) ∧
     (both t = false → zplace e t = t)) := by
  refine ⟨?_, ?_, zplace_eq h⟩
  · cases t with
    | nil => exact absurd rfl h
    | node c l i r =>
      simp only [zplace]
      split <;> cases d <;> simp [T.side, T.blk_size]
  · intro hb
    cases t with
    | nil => exact absurd rfl h
    | node c l i r =>
      have : (l.red && r.red) = true := hb
      simp only [zplace, this, if_true]
      cases d <;> exact ⟨rfl, rfl⟩

theorem nxt_size {lt : Nat → Bool} {t : T} (h : t ≠ .nil) : (nxt lt t).size + 1 ≤ t.size := by
  cases t with
  | nil => exact absurd rfl h
  | node c l i r =>
    have := T.side_size (t := .node c l i r) rfl (!lt i)
    simp only [nxt, T.root, Option.getD]; omega

theorem zloop_gen {lt : Nat → Bool} {e : Nat} : ∀ (k : Nat) {x : List Fr} {t : T}, Gen lt k x t →
    ∃ t', zloop lt e k x t = .ok t'
  | 0, x, t, hc => by have := hc.fuel.1; omega
  | k + 1, x, t, hc => by
    have hzf : ∃ p, zfix x (zplace e t) = .ok p := by
      match x, hc with
      | [], _ => exact ⟨_, rfl⟩
      | [_], _ => exact ⟨_, rfl⟩
      | [f0, g], hc =>
        simp only [zfix]
        rw [if_neg]
        · exact ⟨_, rfl⟩
        · intro h
          have ⟨h1, h2⟩ : (zplace e t).red = true ∧ f0.c = true := by simpa using h
          have ⟨a, b, c⟩ := hc.two f0 g rfl h2
          rw [zplace_eq a c, b] at h1; cases h1
      | f0 :: f1 :: f2 :: r, _ =>
        simp only [zfix]
        split
        · split <;> exact ⟨_, rfl⟩
        · exact ⟨_, rfl⟩
    obtain ⟨⟨x', t'⟩, hz⟩ := hzf
    by_cases ht : t = .nil
    · simp only [zloop, hz, if_pos ht]; exact ⟨_, rfl⟩
    · simp only [zloop, hz, if_neg ht]
      obtain ⟨i, hrt⟩ : ∃ i, t.root = some i := by
        cases t with
        | nil => exact absurd rfl ht
        | node c l i r => exact ⟨i, rfl⟩
      have hr1 := zplace_root (e := e) hrt
      obtain ⟨i1, i2, i3⟩ := zfix_ids hr1 hz
      simp only [i2, Option.getD]
      have fu := hc.fuel.2 ht
      simp only [nxt, hrt, Option.getD] at fu
      have szs := fun d => (zplace_side (e := e) ht d).1
      have dirs : ∀ f ∈ down t' (!lt i) :: x', f.d = !lt f.i := by
        intro f hf
        rcases List.mem_cons.1 hf with rfl | hf
        · simp [down, i2]
        · obtain ⟨g, hg, e1, e2⟩ := i3 f hf
          rw [e1, e2]; exact hc.dir g hg
      refine zloop_gen k ?_
      -- the count when the search goes on in the child
      have fuel1 : ∀ (q : Bool), (∀ y, t' = y → (t'.side (!lt i)).size = (t.side (!lt i)).size) →
          1 ≤ k ∧ (t'.side (!lt i) ≠ .nil →
            2 * (nxt lt (t'.side (!lt i))).size + 2 + (if q then 1 else 0) ≤ k) := by
        intro q hs
        refine ⟨by omega, fun hn => ?_⟩
        have a := nxt_size (lt := lt) hn
        have b := hs t' rfl
        cases q <;> simp <;> omega
      unfold zfix at hz
      split at hz
      · exact absurd hc.hl (by simp [HeadW])
      · next g =>
        cases hz
        refine ⟨hc.hl, dirs, by simp, ?_, fuel1 _ (fun _ _ => szs _)⟩
        intro f0 g' he hf
        simp only [List.cons.injEq] at he
        obtain ⟨rfl, rfl, _⟩ := he
        obtain ⟨o1, o2, o3⟩ := hc.one rfl
        have hf : (zplace e t).red = true := hf
        cases hb : both t with
        | false => rw [zplace_eq ht hb, o1] at hf; cases hf
        | true =>
          have := ((zplace_side (e := e) ht (!lt i)).2.1 hb).1
          rw [this]
          have hred : (t.side (!lt i)).red = true := by
            have : (t.side false).red = true ∧ (t.side true).red = true := by
              simpa [both] using hb
            cases lt i
            · exact this.2
            · exact this.1
          refine ⟨?_, T.blk_red _, ?_⟩
          · cases hq : t.side (!lt i) with
            | nil => rw [hq] at hred; cases hred
            | node => intro h; cases h
          · have := o3 hb (!lt i)
            cases hq : t.side (!lt i) with
            | nil => rfl
            | node => rw [hq] at this; exact this
      · next f0 g =>
        split at hz
        · cases hz
        · cases hz
          exact ⟨hc.hl, dirs, by simp, by simp, fuel1 _ (fun _ _ => szs _)⟩
      · next f0 f1 f2 r =>
        split at hz
        · next hred =>
          have hp : f0.c = true := by
            have : (zplace e t).red = true ∧ f0.c = true := by simpa using hred
            exact this.2
          split at hz
          · cases hz
            exact ⟨hc.hl, dirs, by simp, by simp, fuel1 _ (fun _ _ => szs _)⟩
          · next hd =>
            have hd0 : f0.d = !f1.d := by
              cases e0 : f0.d <;> cases e1 : f1.d <;> simp [e0, e1] at hd ⊢
            have d0 := hc.dir f0 (by simp)
            have d1 := hc.dir f1 (by simp)
            cases hz
            refine ⟨hc.hl, dirs, by simp, ?_, ?_⟩
            · intro a b he ha
              simp only [List.cons.injEq] at he
              rw [← he.1] at ha
              simp [down] at ha
            · simp only [parentRed, hp, if_true] at fu
              refine ⟨by omega, fun _ => ?_⟩
              simp only [hr1, Option.getD]
              rw [nxt_double hd0 d0 d1, szs]
              simp only [parentRed, down, mk_red]
              simp; omega
        · cases hz
          exact ⟨hc.hl, dirs, by simp, by simp, fuel1 _ (fun _ _ => szs _)⟩

end Verif.Rb
