import Verif.Model.Deps
/-!
# C40: mobs a mob depends on
-/
namespace Verif.Deps

/-- `b` is reached from `a` by one or more references. -/
inductive Reach (refs : Nat → List (Option Nat)) : Nat → Nat → Prop
  | one {a b} : some b ∈ refs a → Reach refs a b
  | more {a b c} : some b ∈ refs a → Reach refs b c → Reach refs a c

theorem Reach.trans {refs : Nat → List (Option Nat)} {a b c : Nat} (h : Reach refs a b)
    (h' : Reach refs b c) : Reach refs a c := by
  induction h with
  | one h => exact .more h h'
  | more h _ ih => exact .more h (ih h')

variable {refs : Nat → List (Option Nat)} {self : Nat}

theorem mem_pushes {V : List Nat} {m x : Nat} :
    x ∈ pushes refs V m ↔ some x ∈ refs m ∧ x ∉ V := by
  simp only [pushes, List.mem_filterMap]
  constructor
  · rintro ⟨r, h1, h2⟩
    cases r with
    | none => cases h2
    | some y =>
      simp only at h2
      split at h2
      · cases h2
      · cases h2; exact ⟨h1, by assumption⟩
  · rintro ⟨h1, h2⟩
    exact ⟨some x, h1, by simp [h2]⟩

theorem pushes_nil {V : List Nat} {m : Nat} :
    pushes refs V m = [] ↔ ∀ x, some x ∈ refs m → x ∈ V := by
  rw [List.eq_nil_iff_forall_not_mem]
  constructor
  · intro h x hx
    have := h x
    rw [mem_pushes] at this
    exact Classical.byContradiction fun hn => this ⟨hx, hn⟩
  · intro h x hx
    rw [mem_pushes] at hx
    exact hx.2 (h x hx.1)

theorem iter_add (n k : Nat) (st : St) :
    iter refs self (n + k) st = iter refs self k (iter refs self n st) := by
  induction n generalizing st with
  | zero => simp [iter]
  | succ n ih => rw [Nat.succ_add]; simp only [iter]; exact ih _

/-- Every mob in the list comes after all mobs it refers to. -/
def Ordered (refs : Nat → List (Option Nat)) (l : List Nat) : Prop :=
  ∀ A x B, l = A ++ x :: B → ∀ y, some y ∈ refs x → y ∈ A

theorem Ordered.closed {l : List Nat} (h : Ordered refs l) {x y : Nat} (hx : x ∈ l)
    (hy : some y ∈ refs x) : y ∈ l := by
  obtain ⟨A, B, rfl⟩ := List.append_of_mem hx
  exact List.mem_append.2 (Or.inl (h A x B rfl y hy))

theorem Ordered.snoc {l : List Nat} (h : Ordered refs l) {m : Nat}
    (hm : ∀ y, some y ∈ refs m → y ∈ l) : Ordered refs (l ++ [m]) := by
  intro A x B e y hy
  rcases List.eq_nil_or_concat B with rfl | ⟨B', z, rfl⟩
  · have := List.append_inj_left' e rfl
    have h2 := List.append_inj_right' e rfl
    cases h2
    subst this
    exact hm y hy
  · have e' : l ++ [m] = (A ++ x :: B') ++ [z] := by rw [e]; simp
    have := List.append_inj_left' e' rfl
    exact h A x B' this y hy

/-- What a completed part of the search has done. -/
structure Done (refs : Nat → List (Option Nat)) (me : Nat) (src : Nat → Prop) (V O V' O' : List Nat) :
    Prop where
  ord : Ordered refs V'
  nodup : V'.Nodup
  new : ∃ W, V' = V ++ W ∧ O' = O ++ W.filter (· ≠ me) ∧
    ∀ x ∈ W, src x ∨ ∃ c, src c ∧ Reach refs c x
  all : ∀ x, src x → x ∈ V'

theorem process {rank : Nat → Nat} (hr : ∀ a b, some b ∈ refs a → rank b < rank a) : ∀ (k m : Nat),
    rank m = k → ∀ (rest V O : List Nat), Ordered refs V → V.Nodup →
    ∃ n V' O', iter refs self n ⟨m :: rest, V, O⟩ = ⟨rest, V', O'⟩ ∧
      Done refs self (· = m) V O V' O' := by
  intro k
  induction k using Nat.strongRecOn with
  | ind k ih =>
    -- several mobs in turn
    have many : ∀ (cs rest V O : List Nat), (∀ c ∈ cs, rank c < k) → Ordered refs V → V.Nodup →
        ∃ n V' O', iter refs self n ⟨cs ++ rest, V, O⟩ = ⟨rest, V', O'⟩ ∧
          Done refs self (· ∈ cs) V O V' O' := by
      intro cs
      induction cs with
      | nil =>
        intro rest V O _ ho hn
        exact ⟨0, V, O, rfl, ho, hn, ⟨[], by simp, by simp, by simp⟩, by simp⟩
      | cons c cs ihc =>
        intro rest V O hc ho hn
        obtain ⟨n1, V1, O1, e1, d1⟩ := ih (rank c) (hc c (by simp)) c rfl (cs ++ rest) V O ho hn
        obtain ⟨n2, V2, O2, e2, d2⟩ := ihc rest V1 O1 (fun x hx => hc x (by simp [hx])) d1.ord d1.nodup
        refine ⟨n1 + n2, V2, O2, ?_, d2.ord, d2.nodup, ?_, ?_⟩
        · rw [iter_add, List.cons_append, e1, e2]
        · obtain ⟨W1, a1, b1, c1⟩ := d1.new
          obtain ⟨W2, a2, b2, c2⟩ := d2.new
          refine ⟨W1 ++ W2, by rw [a2, a1, List.append_assoc], by rw [b2, b1]; simp, ?_⟩
          intro x hx
          rcases List.mem_append.1 hx with h | h
          · rcases c1 x h with h | ⟨y, h, h'⟩
            · exact Or.inl (by simp [h])
            · exact Or.inr ⟨y, by simp [h], h'⟩
          · rcases c2 x h with h | ⟨y, h, h'⟩
            · exact Or.inl (by simp [h])
            · exact Or.inr ⟨y, by simp [h], h'⟩
        · intro x hx
          rcases List.mem_cons.1 hx with h | h
          · obtain ⟨W2, a2, _⟩ := d2.new
            rw [a2]; exact List.mem_append.2 (Or.inl (d1.all x h))
          · exact d2.all x h
    intro m hm rest V O ho hn
    -- after the mobs referred to
    have finish : ∀ V O, Ordered refs V → V.Nodup → pushes refs V m = [] →
        ∃ V' O', iter refs self 1 ⟨m :: rest, V, O⟩ = ⟨rest, V', O'⟩ ∧ Done refs self (· = m) V O V' O' := by
      intro V O ho hn hp
      by_cases hv : m ∈ V
      · refine ⟨V, O, by simp [iter, step, hp, hv], ho, hn, ⟨[], by simp, by simp, by simp⟩, ?_⟩
        intro x hx; rw [hx]; exact hv
      · refine ⟨V ++ [m], if m = self then O else O ++ [m], by simp [iter, step, hp, hv],
          ho.snoc (pushes_nil.1 hp), ?_, ⟨[m], rfl, ?_, by simp⟩, ?_⟩
        · rw [List.nodup_append]
          refine ⟨hn, by simp, ?_⟩
          intro a ha b hb
          rw [List.mem_singleton] at hb
          intro e; rw [e, hb] at ha; exact hv ha
        · by_cases hs : m = self <;> simp [hs]
        · intro x hx; simp [hx]
    cases hp : pushes refs V m with
    | nil =>
      obtain ⟨V', O', e, d⟩ := finish V O ho hn hp
      exact ⟨1, V', O', e, d⟩
    | cons p ps =>
      have hchild : ∀ c ∈ (p :: ps).reverse, some c ∈ refs m ∧ c ∉ V := by
        intro c hc
        rw [List.mem_reverse, ← hp, mem_pushes] at hc
        exact hc
      obtain ⟨n1, V1, O1, e1, d1⟩ := many (p :: ps).reverse (m :: rest) V O
        (fun c hc => hm ▸ hr m c (hchild c hc).1) ho hn
      obtain ⟨W1, a1, b1, c1⟩ := d1.new
      have hp1 : pushes refs V1 m = [] := by
        rw [pushes_nil]
        intro x hx
        by_cases hxv : x ∈ V
        · rw [a1]; exact List.mem_append.2 (Or.inl hxv)
        · refine d1.all x ?_
          rw [List.mem_reverse, ← hp, mem_pushes]; exact ⟨hx, hxv⟩
      obtain ⟨V', O', e2, d2⟩ := finish V1 O1 d1.ord d1.nodup hp1
      obtain ⟨W2, a2, b2, c2⟩ := d2.new
      refine ⟨1 + n1 + 1, V', O', ?_, d2.ord, d2.nodup, ⟨W1 ++ W2, ?_, ?_, ?_⟩, d2.all⟩
      · rw [iter_add, iter_add]
        have : iter refs self 1 ⟨m :: rest, V, O⟩ = ⟨(p :: ps).reverse ++ m :: rest, V, O⟩ := by
          simp [iter, step, hp]
        rw [this, e1, e2]
      · rw [a2, a1, List.append_assoc]
      · rw [b2, b1]; simp
      · intro x hx
        rcases List.mem_append.1 hx with h | h
        · right
          refine ⟨m, rfl, ?_⟩
          rcases c1 x h with h | ⟨y, h, h'⟩
          · exact .one (hchild x h).1
          · exact .more (hchild y h).1 h'
        · exact c2 x h

/-- A rank exists on every finite graph without cycles: the number of mobs reached. -/
theorem exists_rank (ids : List Nat) (hclosed : ∀ a b, some b ∈ refs a → b ∈ ids)
    (hac : ∀ a, ¬ Reach refs a a) : ∃ rank : Nat → Nat, ∀ a b, some b ∈ refs a → rank b < rank a := by
  classical
  refine ⟨fun a => ids.countP (fun x => decide (Reach refs a x)), ?_⟩
  intro a b hab
  have strict : ∀ (l : List Nat), b ∈ l →
      l.countP (fun x => decide (Reach refs b x)) < l.countP (fun x => decide (Reach refs a x)) := by
    intro l hl
    obtain ⟨A, B, rfl⟩ := List.append_of_mem hl
    simp only [List.countP_append, List.countP_cons]
    have hb : ¬ Reach refs b b := hac b
    have ha : Reach refs a b := .one hab
    have hA : ∀ l : List Nat, l.countP (fun x => decide (Reach refs b x)) ≤
        l.countP (fun x => decide (Reach refs a x)) := by
      intro l
      apply List.countP_mono_left
      intro x _ h
      simp only [decide_eq_true_eq] at h ⊢
      exact .more hab h
    have h1 := hA A
    have h2 := hA B
    simp only [hb, ha, decide_false, decide_true, if_true, Bool.false_eq_true, if_false]
    omega
  exact strict ids (hclosed a b hab)

/-- **C40**: on every finite graph of references without cycles the listing ends; it contains every
mob reached from the start exactly once and nothing else, and each mob comes after all mobs it
refers to. -/
theorem C40_dependant_mobs (ids : List Nat) (hclosed : ∀ a b, some b ∈ refs a → b ∈ ids)
    (hac : ∀ a, ¬ Reach refs a a) :
    ∃ n0 out, (∀ n, n0 ≤ n → dependantMobs refs self n = some out) ∧ out.Nodup ∧
      (∀ x, x ∈ out ↔ Reach refs self x) ∧ Ordered refs out := by
  obtain ⟨rank, hr⟩ := exists_rank ids hclosed hac
  obtain ⟨n0, V, O, e, d⟩ := process (self := self) hr _ self rfl [] [] []
    (by intro A x B h; simp at h) (by simp)
  obtain ⟨W, a, b, c⟩ := d.new
  simp only [List.nil_append] at a b
  subst a
  have stay : ∀ (k : Nat) (V O : List Nat), iter refs self k ⟨[], V, O⟩ = ⟨[], V, O⟩ := by
    intro k
    induction k with
    | zero => intro V O; rfl
    | succ k ih => intro V O; simp only [iter]; exact ih _ _
  have hself : ∀ x, Reach refs self x → x ≠ self := by
    intro x hx e; rw [e] at hx; exact hac _ hx
  refine ⟨n0, O, ?_, ?_, ?_, ?_⟩
  · intro n hn
    obtain ⟨k, rfl⟩ := Nat.exists_eq_add_of_le hn
    simp only [dependantMobs, iter_add, e, stay, if_true]
  · rw [b]; exact List.Pairwise.filter _ d.nodup
  · intro x
    rw [b, List.mem_filter]
    simp only [ne_eq, decide_not, Bool.not_eq_eq_eq_not, Bool.not_true, decide_eq_false_iff_not]
    constructor
    · rintro ⟨h1, h2⟩
      rcases c x h1 with h | ⟨y, rfl, h⟩
      · exact absurd h h2
      · exact h
    · intro h
      refine ⟨?_, hself x h⟩
      have : ∀ a b, Reach refs a b → a ∈ V → b ∈ V := by
        intro a b h
        induction h with
        | one h => intro ha; exact d.ord.closed ha h
        | more h _ ih => intro ha; exact ih (d.ord.closed ha h)
      exact this _ _ h (d.all self rfl)
  · intro A x B hO y hy
    rw [b] at hO
    -- the mob is visited after y
    obtain ⟨A', rst, h1, h2, h3⟩ := List.filter_eq_append_iff.1 hO
    obtain ⟨B1, B2, h4, h5, h6, h7⟩ := List.filter_eq_cons_iff.1 h3
    have hyA := d.ord (A' ++ B1) x B2 (by rw [h1, h4]; simp) y hy
    have hx : x ∈ O := by rw [b, hO]; simp
    have hreach : Reach refs self x := by
      have hxs : x ∈ V := by rw [h1, h4]; simp
      have hxs' : x ≠ self := by simpa using h6
      rcases c x hxs with h | ⟨z, rfl, h⟩
      · exact absurd h hxs'
      · exact h
    have hys : y ≠ self := hself y (hreach.trans (.one hy))
    rcases List.mem_append.1 hyA with h | h
    · rw [← h2, List.mem_filter]; exact ⟨h, by simpa using hys⟩
    · exact absurd (h5 y h) (by simpa using hys)

/-! ## Cycles -/

/-- Invariant of the loop on any graph. -/
structure Inv (refs : Nat → List (Option Nat)) (me : Nat) (st : St) : Prop where
  ord : Ordered refs st.visited
  start : me ∈ st.visited ∨ me ∈ st.stack

theorem inv_step {st : St} (h : Inv refs self st) : Inv refs self (step refs self st) := by
  obtain ⟨stack, visited, out⟩ := st
  obtain ⟨h1, h2⟩ := h
  simp only at h1 h2
  cases stack with
  | nil => exact ⟨h1, h2⟩
  | cons m rest =>
    simp only [step]
    cases hp : pushes refs visited m with
    | nil =>
      simp only
      split
      · rename_i hm
        refine ⟨h1, ?_⟩
        rcases h2 with h | h
        · exact Or.inl h
        · rcases List.mem_cons.1 h with h | h
          · left; rw [h]; exact hm
          · exact Or.inr h
      · refine ⟨h1.snoc (pushes_nil.1 hp), ?_⟩
        rcases h2 with h | h
        · left; simp [h]
        · rcases List.mem_cons.1 h with h | h
          · left; simp [h]
          · exact Or.inr h
    | cons p ps =>
      refine ⟨h1, ?_⟩
      rcases h2 with h | h
      · exact Or.inl h
      · right; exact List.mem_append.2 (Or.inr h)

theorem inv_iter : ∀ (n : Nat) {st : St}, Inv refs self st → Inv refs self (iter refs self n st)
  | 0, _, h => h
  | n + 1, _, h => inv_iter n (inv_step h)

/-- In an ordered list no mob refers, directly or not, to itself. -/
theorem Ordered.acyclic {l : List Nat} (h : Ordered refs l) : ∀ (n : Nat) {a : Nat} {A B : List Nat},
    A.length = n → l = A ++ a :: B → ¬ Reach refs a a := by
  have before : ∀ {a b : Nat}, Reach refs a b → ∀ {A B : List Nat}, l = A ++ a :: B → b ∈ A := by
    intro a b hr
    induction hr with
    | one h1 => intro A B e; exact h A _ B e _ h1
    | @more a b c h1 _ ih =>
      intro A B e
      have hb := h A _ B e _ h1
      obtain ⟨A1, A2, rfl⟩ := List.append_of_mem hb
      have := ih (A := A1) (B := A2 ++ a :: B) (by rw [e]; simp)
      exact List.mem_append.2 (Or.inl this)
  intro n
  induction n using Nat.strongRecOn with
  | ind n ih =>
    intro a A B hA e hr
    have hm := before hr e
    obtain ⟨A1, A2, rfl⟩ := List.append_of_mem hm
    refine ih A1.length ?_ (a := a) (A := A1) (B := A2 ++ a :: B) rfl (by rw [e]; simp) hr
    rw [← hA]; simp

/-- **C40, cycles**: when the mob refers, directly or not, to a mob on a cycle of references (or is on
one itself), the loop never ends. -/
theorem C40_cycle_never_ends {x : Nat} (hx : x = self ∨ Reach refs self x) (hc : Reach refs x x) (n : Nat) :
    dependantMobs refs self n = none := by
  have hi : Inv refs self (iter refs self n ⟨[self], [], []⟩) :=
    inv_iter n ⟨by intro A x B h; simp at h, by simp⟩
  simp only [dependantMobs]
  generalize iter refs self n ⟨[self], [], []⟩ = st at hi
  split
  · rename_i he
    exfalso
    have hs : self ∈ st.visited := by
      rcases hi.start with h | h
      · exact h
      · rw [he] at h; cases h
    have hxv : x ∈ st.visited := by
      rcases hx with rfl | hx
      · exact hs
      · have : ∀ a b, Reach refs a b → a ∈ st.visited → b ∈ st.visited := by
          intro a b h
          induction h with
          | one h => intro ha; exact hi.ord.closed ha h
          | more h _ ih => intro ha; exact ih (hi.ord.closed ha h)
        exact this _ _ hx hs
    obtain ⟨A, B, e⟩ := List.append_of_mem hxv
    exact hi.ord.acyclic _ rfl e hc
  · rfl

/-- **C40 counterexample**: two mobs referring to each other. -/
theorem C40_cycle_counterexample (n : Nat) :
    dependantMobs (fun m => if m = 1 then [some 2] else if m = 2 then [some 1] else []) 1 n = none :=
  C40_cycle_never_ends (x := 1) (Or.inl rfl) (.more (b := 2) (by simp) (.one (by simp))) n

/-- A diamond of references with an unknown mob id. -/
def diamond (m : Nat) : List (Option Nat) :=
  if m = 1 then [some 2, none, some 3] else if m = 2 then [some 4] else if m = 3 then [some 4, some 5] else []

/-- The hypotheses of `C40_dependant_mobs` are met by the diamond. -/
example : (∀ a b, some b ∈ diamond a → b ∈ [2, 3, 4, 5]) ∧ (∀ a, ¬ Reach diamond a a) ∧
    dependantMobs diamond 1 20 = some [5, 4, 3, 2] := by
  have lt : ∀ a b, some b ∈ diamond a → a < b ∧ b ∈ [2, 3, 4, 5] := by
    intro a b h
    simp only [diamond] at h
    split at h
    · simp at h; rcases h with rfl | rfl <;> simp_all
    · split at h
      · simp at h; simp_all
      · split at h
        · simp at h; rcases h with rfl | rfl <;> simp_all
        · cases h
  have lt' : ∀ a b, Reach diamond a b → a < b := by
    intro a b h
    induction h with
    | one h => exact (lt _ _ h).1
    | more h _ ih => have := (lt _ _ h).1; omega
  refine ⟨fun a b h => (lt a b h).2, ?_, by decide⟩
  intro a h
  have := lt' a a h
  omega

end Verif.Deps
