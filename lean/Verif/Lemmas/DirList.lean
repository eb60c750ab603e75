import Verif.Lemmas.RbTop
import Verif.Spec.DirSet
/-!
# The order of names; listing and looking up in a represented tree
-/
namespace Verif.Rb

theorem char_eq {a b : Char} (h : a.toNat = b.toNat) : a = b := by
  have : a.val = b.val := UInt32.toNat_inj.1 h
  exact Char.ext this

theorem strLt_irrefl : ∀ (a : Name), strLt a a = false
  | [] => rfl
  | a :: s => by simp [strLt, strLt_irrefl s]

theorem strLt_trans : ∀ (a b c : Name), strLt a b = true → strLt b c = true → strLt a c = true
  | [], [], _, h, _ => by simp [strLt] at h
  | [], _ :: _, [], _, h => by simp [strLt] at h
  | [], _ :: _, _ :: _, _, _ => rfl
  | _ :: _, [], _, h, _ => by simp [strLt] at h
  | _ :: _, _ :: _, [], _, h => by simp [strLt] at h
  | a :: s, b :: t, c :: u, h1, h2 => by
    simp only [strLt] at *
    by_cases x1 : a.toNat < b.toNat
    · by_cases x2 : b.toNat < c.toNat
      · have : a.toNat < c.toNat := by omega
        simp [this]
      · by_cases x3 : c.toNat < b.toNat
        · simp [x2, x3] at h2
        · have : a.toNat < c.toNat := by omega
          simp [this]
    · by_cases x4 : b.toNat < a.toNat
      · simp [x1, x4] at h1
      · simp only [x1, x4, if_false] at h1
        have e : a.toNat = b.toNat := by omega
        rw [e]
        by_cases x2 : b.toNat < c.toNat
        · simp [x2]
        · by_cases x3 : c.toNat < b.toNat
          · simp [x2, x3] at h2
          · simp only [x2, x3, if_false] at h2 ⊢
            exact strLt_trans s t u h1 h2

theorem strLt_tri : ∀ (a b : Name), strLt a b = true ∨ strLt b a = true ∨ a = b
  | [], [] => by simp
  | [], _ :: _ => by simp [strLt]
  | _ :: _, [] => by simp [strLt]
  | a :: s, b :: t => by
    simp only [strLt]
    by_cases x1 : a.toNat < b.toNat
    · simp [x1]
    · by_cases x2 : b.toNat < a.toNat
      · simp [x2]
      · have := char_eq (show a.toNat = b.toNat by omega)
        subst this
        simp only [x1, if_false]
        rcases strLt_tri s t with h | h | h
        · exact Or.inl h
        · exact Or.inr (Or.inl h)
        · exact Or.inr (Or.inr (by rw [h]))

theorem strLt_lex : ∀ (a b : Name), List.lex a b (· < ·) = strLt a b
  | [], [] => rfl
  | [], _ :: _ => rfl
  | _ :: _, [] => rfl
  | a :: s, b :: t => by
    simp only [List.lex, strLt]
    have hlt : decide (a < b) = decide (a.toNat < b.toNat) := rfl
    rw [hlt, strLt_lex s t]
    by_cases x1 : a.toNat < b.toNat
    · simp [x1]
    · by_cases x2 : b.toNat < a.toNat
      · have : a ≠ b := by intro e; subst e; omega
        simp [x1, x2, this]
      · have := char_eq (show a.toNat = b.toNat by omega)
        subst this
        simp

theorem nameOrd_lawful (up : Name → Name) : (nameOrd up).Lawful := by
  refine ⟨?_, ?_, ?_, ?_, ?_⟩
  · intro a; simp [nameOrd, strLt_irrefl]
  · intro a b c h1 h2
    simp only [nameOrd] at *
    by_cases e1 : a.length = b.length
    · by_cases e2 : b.length = c.length
      · simp only [e1, e2, if_true] at *
        exact strLt_trans _ _ _ h1 h2
      · simp only [e2, if_false, decide_eq_true_eq] at h2
        have : ¬ a.length = c.length := by omega
        simp only [this, if_false, decide_eq_true_eq]; omega
    · simp only [e1, if_false, decide_eq_true_eq] at h1
      by_cases e2 : b.length = c.length
      · have : ¬ a.length = c.length := by omega
        simp only [this, if_false, decide_eq_true_eq]; omega
      · simp only [e2, if_false, decide_eq_true_eq] at h2
        have : ¬ a.length = c.length := by omega
        simp only [this, if_false, decide_eq_true_eq]; omega
  · intro a b
    simp only [nameOrd]
    by_cases e : a.length = b.length
    · simp only [e, if_true]
      rcases strLt_tri (up a) (up b) with h | h | h
      · exact Or.inl h
      · exact Or.inr (Or.inl h)
      · exact Or.inr (Or.inr (by simp [h]))
    · have e' : ¬ b.length = a.length := fun h => e h.symm
      simp only [e, e', if_false, decide_eq_true_eq]; omega
  · intro a; simp [nameOrd]
  · intro a b h
    simp only [nameOrd] at *
    by_cases e : a.length = b.length
    · simp only [e, if_true] at *
      have : up a ≠ up b := by intro h2; rw [h2, strLt_irrefl] at h; cases h
      exact ⟨by simpa using this, by simpa using fun h => this h.symm⟩
    · have e' : ¬ b.length = a.length := fun h => e h.symm
      simp [e, e']

theorem nameOrd_eq {up : Name → Name} {a b : Name} :
    (nameOrd up).eq a b = true ↔ DirSpec.sameName up a b := by
  simp only [nameOrd, DirSpec.sameName]
  by_cases e : a.length = b.length <;> simp [e]

/-! ## Listing -/

/-- The order in which the entries are listed. -/
def T.pre : T → List Nat
  | .nil => []
  | .node _ l i r => i :: (r.pre ++ l.pre)

theorem T.pre_perm (t : T) : t.pre.Perm t.ids := by
  induction t with
  | nil => exact List.Perm.refl _
  | node c l i r ihl ihr =>
    simp only [T.pre, T.ids]
    refine List.Perm.trans ?_ (List.perm_middle.symm)
    refine List.Perm.cons _ ?_
    exact (List.perm_append_comm).trans (List.Perm.append ihl ihr)

theorem T.ids_length (t : T) : t.ids.length = t.size := by
  induction t with
  | nil => rfl
  | node c l i r ihl ihr => simp only [T.ids, T.size, List.length_append, List.length_cons]; omega

theorem listLoop_spec {h : Heap Name} : ∀ (n : Nat) (ts : List T) (d : List (Name × Nat)),
    (∀ t ∈ ts, t ≠ .nil ∧ Rep h t.root t) → (ts.map T.size).sum ≤ n →
    (d.map (·.1) ++ (ts.flatMap T.pre).map (ky h)).Nodup →
    listLoop h n (ts.filterMap T.root) d = .ok (d ++ (ts.flatMap T.pre).map fun i => (ky h i, i))
  | n, [], d, _, _, _ => by cases n <;> simp [listLoop]
  | n, .nil :: ts, d, hr, _, _ => absurd rfl (hr .nil (by simp)).1
  | 0, .node c l i r :: ts, d, _, hs, _ => by simp [T.size] at hs
  | n + 1, .node c l i r :: ts, d, hr, hs, hn => by
    obtain ⟨-, r1, r2, r3⟩ := (hr (.node c l i r) (by simp)).2
    have hts : ∀ t ∈ ts, t ≠ .nil ∧ Rep h t.root t := fun t ht => hr t (by simp [ht])
    have hl : (h.ent i).left = l.root := r2.root
    have hrr : (h.ent i).right = r.root := r3.root
    have repl : Rep h l.root l := by have := r2; rwa [r2.root] at this
    have repr' : Rep h r.root r := by have := r3; rwa [r3.root] at this
    have hset : dictSet d (h.ent i).key i = d ++ [(ky h i, i)] := by
      unfold dictSet
      rw [if_neg]
      · rfl
      · intro hany
        rw [List.any_eq_true] at hany
        obtain ⟨p, hp, he⟩ := hany
        have he : p.1 = ky h i := by simpa [ky] using he
        simp only [List.flatMap_cons, T.pre, List.cons_append, List.map_cons] at hn
        have := (List.nodup_append.1 hn).2.2 p.1 (List.mem_map.2 ⟨p, hp, rfl⟩) (ky h i) (by simp)
        exact this he
    have hstack : (match r.root with
        | none => (match l.root with
          | none => ts.filterMap T.root
          | some a => a :: ts.filterMap T.root)
        | some b => b :: (match l.root with
          | none => ts.filterMap T.root
          | some a => a :: ts.filterMap T.root)) =
        ((r :: l :: ts).filter fun t => t.root.isSome).filterMap T.root := by
      have : ((ts.filter fun t => t.root.isSome)) = ts := by
        rw [List.filter_eq_self]
        intro t ht
        cases t with
        | nil => exact absurd rfl (hts .nil ht).1
        | node a b c d => rfl
      cases hl : l.root <;> cases hr' : r.root <;> simp [List.filter_cons, hl, hr', this]
    have hflat : (((r :: l :: ts).filter fun t => t.root.isSome).flatMap T.pre) =
        r.pre ++ (l.pre ++ ts.flatMap T.pre) := by
      have : ((ts.filter fun t => t.root.isSome)) = ts := by
        rw [List.filter_eq_self]
        intro t ht
        cases t with
        | nil => exact absurd rfl (hts .nil ht).1
        | node a b c d => rfl
      rw [List.filter_cons, List.filter_cons, this]
      cases l <;> cases r <;> simp [T.root, T.pre]
    have ih := listLoop_spec n ((r :: l :: ts).filter fun t => t.root.isSome) (d ++ [(ky h i, i)])
      (by
        intro t ht
        rw [List.mem_filter] at ht
        refine ⟨fun e => by subst e; simp [T.root] at ht, ?_⟩
        rcases List.mem_cons.1 ht.1 with rfl | h1
        · exact repr'
        · rcases List.mem_cons.1 h1 with rfl | h1
          · exact repl
          · exact (hts t h1).2)
      (by
        have hle : ∀ (xs : List T), ((xs.filter fun t => t.root.isSome).map T.size).sum ≤ (xs.map T.size).sum := by
          intro xs
          induction xs with
          | nil => simp
          | cons a xs ih =>
            rw [List.filter_cons]
            split
            · simp only [List.map_cons, List.sum_cons]; omega
            · simp only [List.map_cons, List.sum_cons]; omega
        have := hle (r :: l :: ts)
        simp only [List.map_cons, List.sum_cons, T.size] at this hs
        omega)
      (by
        rw [hflat]
        simp only [List.flatMap_cons, T.pre, List.cons_append, List.map_cons, List.map_append,
          List.append_assoc, List.map_nil, List.nil_append] at hn ⊢
        exact hn)
    simp only [List.filterMap_cons, T.root]
    show listLoop h (n + 1) (i :: ts.filterMap T.root) d = _
    simp only [listLoop, hset, hl, hrr]
    refine (congrArg (fun s => listLoop h n s (d ++ [(ky h i, i)])) hstack).trans ?_
    simp only [ih, hflat]
    simp only [List.flatMap_cons, T.pre, List.cons_append, List.map_cons, List.map_append,
          List.append_assoc, List.nil_append]

theorem listdir_spec {up : Name → Name} {m : Nat} {s : Stor} {t : T}
    (hd : IsDir (nameOrd up) s.heap s.child t) (hm : t.size ≤ m) :
    ∃ l, listdir m s = .ok l ∧ l = t.pre.map fun i => (ky s.heap i, i) := by
  refine ⟨_, ?_, rfl⟩
  unfold listdir
  have hr := hd.rep
  cases t with
  | nil =>
    have : s.child = none := hr
    rw [this]; rfl
  | node c l i r =>
    have hc : s.child = some i := hr.1
    rw [hc]
    have := listLoop_spec (h := s.heap) m [.node c l i r] [] (by
        intro t ht
        rw [List.mem_singleton] at ht
        subst ht
        rw [hc] at hr
        exact ⟨by simp, hr⟩) (by simpa using hm) (by
        simp only [List.map_nil, List.nil_append, List.flatMap_cons, List.flatMap_nil, List.append_nil]
        have hp := T.pre_perm (.node c l i r)
        have hnd : (((T.node c l i r).ids).map (ky s.heap)).Nodup := by
          have := hd.sorted
          unfold List.Nodup
          rw [List.pairwise_map]
          refine List.Pairwise.imp ?_ this
          intro a b hab e
          rw [e, (nameOrd_lawful up).irrefl] at hab; cases hab
        exact ((hp.map _).nodup_iff).2 hnd)
    simpa [T.root] using this

/-! ## Looking up -/

def T.height : T → Nat
  | .nil => 0
  | .node _ l _ r => max l.height r.height + 1

theorem T.height_le_size (t : T) : t.height ≤ t.size := by
  induction t with
  | nil => exact Nat.le_refl _
  | node c l i r ihl ihr => simp only [T.height, T.size]; omega

theorem seek_spec {up : Name → Name} {h : Heap Name} {k : Name} {t : T} : ∀ {q : Option Nat} (n : Nat),
    Rep h q t → Sorted (nameOrd up) h t.ids → t.height ≤ n →
    (∀ i ∈ t.ids, DirSpec.sameName up k (ky h i) →
      DirSpec.seek up (fun i => (h.ent i).left) (fun i => (h.ent i).right) (ky h) k n q = some i) ∧
    ((∀ i ∈ t.ids, ¬ DirSpec.sameName up k (ky h i)) →
      DirSpec.seek up (fun i => (h.ent i).left) (fun i => (h.ent i).right) (ky h) k n q = none) := by
  induction t with
  | nil =>
    intro q n hr _ _
    have : q = none := hr
    subst this
    refine ⟨fun i hi => by simp [T.ids] at hi, fun _ => ?_⟩
    cases n <;> rfl
  | node c l i r ihl ihr =>
    intro q n hr hs hn
    obtain ⟨hq, r1, r2, r3⟩ := hr
    subst hq
    cases n with
    | zero => simp [T.height] at hn
    | succ n =>
      simp only [T.height] at hn
      have hs' := hs
      simp only [T.ids] at hs'
      obtain ⟨s1, s2, s3⟩ := List.pairwise_append.1 hs'
      obtain ⟨s4, s5⟩ := List.pairwise_cons.1 s2
      have il := ihl (q := (h.ent i).left) n r2 s1 (by omega)
      have ir := ihr (q := (h.ent i).right) n r3 s5 (by omega)
      have w := nameOrd_lawful up
      have hlt : (k.length < (ky h i).length ∨ (k.length = (ky h i).length ∧
          List.lex (up k) (up (ky h i)) (· < ·) = true)) ↔ (nameOrd up).lt k (ky h i) = true := by
        rw [strLt_lex]
        simp only [nameOrd]
        by_cases e : k.length = (ky h i).length
        · simp [e]
        · simp [e]
      have hsame : (k.length = (ky h i).length ∧ up k = up (ky h i)) ↔
          (nameOrd up).eq k (ky h i) = true := nameOrd_eq.symm
      simp only [DirSpec.seek, hlt, hsame]
      have eqlt : ∀ j, (nameOrd up).eq k (ky h j) = true →
          ((nameOrd up).lt k (ky h i) = (nameOrd up).lt (ky h j) (ky h i)) ∧
          ((nameOrd up).eq k (ky h i) = (nameOrd up).eq (ky h j) (ky h i)) := by
        intro j hj
        rw [nameOrd_eq] at hj
        simp only [nameOrd, hj.1, hj.2, and_self]
      constructor
      · intro j hj hkj
        have hkj := nameOrd_eq.2 hkj
        obtain ⟨e1, e2⟩ := eqlt j hkj
        simp only [T.ids] at hj
        rcases List.mem_append.1 hj with hj | hj
        · have := s3 j hj i (by simp)
          rw [e1, e2, (w.ne _ _ this).1, this]
          simp only [Bool.false_eq_true, if_false, if_true]
          exact il.1 j hj (nameOrd_eq.1 hkj)
        · rcases List.mem_cons.1 hj with rfl | hj
          · rw [hkj]; simp
          · have := s4 j hj
            rw [e1, e2, (w.ne _ _ this).2, w.asymm this]
            simp only [Bool.false_eq_true, if_false]
            exact ir.1 j hj (nameOrd_eq.1 hkj)
      · intro hno
        have h1 : (nameOrd up).eq k (ky h i) = false := by
          cases he : (nameOrd up).eq k (ky h i) with
          | false => rfl
          | true => exact absurd (nameOrd_eq.1 he) (hno i (by simp [T.ids]))
        simp only [h1, Bool.false_eq_true, if_false]
        split
        · exact il.2 (fun j hj => hno j (by simp [T.ids, hj]))
        · exact ir.2 (fun j hj => hno j (by simp [T.ids, hj]))

/-! ## Height of a red-black tree -/

theorem bal_size {t : T} : ∀ {n : Nat}, bal t n → 2 ^ n ≤ t.size + 1 := by
  induction t with
  | nil => intro n h; have : n = 0 := h; subst this; simp [T.size]
  | node c l i r ihl ihr =>
    intro n h
    obtain ⟨m, e, a, b⟩ := h
    have := ihl a; have := ihr b
    simp only [T.size]
    cases c
    · have : n = m + 1 := by simpa using e
      subst this
      rw [Nat.pow_succ]; omega
    · have : n = m := by simpa using e
      subst this; omega

theorem nr_height {t : T} : ∀ {n : Nat}, nr t → bal t n →
    t.height ≤ 2 * n + (if t.red then 1 else 0) := by
  induction t with
  | nil => intro n _ _; simp [T.height]
  | node c l i r ihl ihr =>
    intro n hn h
    obtain ⟨m, e, a, b⟩ := h
    have h1 := ihl hn.1 a; have h2 := ihr hn.2.1 b
    simp only [T.height, T.red]
    cases c
    · have : n = m + 1 := by simpa using e
      subst this
      have : (if l.red = true then 1 else 0) ≤ 1 := by split <;> omega
      have : (if r.red = true then 1 else 0) ≤ 1 := by split <;> omega
      simp only [Bool.false_eq_true, if_false]
      omega
    · have : n = m := by simpa using e
      subst this
      have := hn.2.2 rfl
      simp only [this.1, this.2, Bool.false_eq_true, if_false] at h1 h2
      simp only [if_true]; omega

/-- The longest way down is at most twice the logarithm of the number of entries. -/
theorem RB.height {t : T} (h : RB t) : t.height ≤ 2 * Nat.log2 (t.size + 1) := by
  obtain ⟨h1, ⟨n, h2⟩, h3⟩ := h
  have := nr_height h1 h2
  rw [h3] at this
  have h4 := bal_size h2
  have : n ≤ Nat.log2 (t.size + 1) := (Nat.le_log2 (by omega)).2 h4
  simp at *; omega

end Verif.Rb
