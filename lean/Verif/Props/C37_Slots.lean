import Verif.Model.Slots
/-!
# C37: slot ids of new slots
-/
namespace Verif.Slots

theorem lastDiff_append (i : Nat) (l : List (Option Nat)) (r : Option Nat) :
    lastDiff i (l ++ [none]) r = some (i + l.length) := by
  induction l generalizing i r with
  | nil => simp [lastDiff]
  | cons a l ih => simp only [List.cons_append, lastDiff, ih, List.length_cons]; congr 1; omega

theorem head_zero (l : List Nat) :
    (l.mergeSort (fun a b => decide (a ≤ b))).head? = some 0 ↔ 0 ∈ l := by
  have hs := List.pairwise_mergeSort (le := fun a b : Nat => decide (a ≤ b))
    (by intro a b c h1 h2; simp at *; omega) (by intro a b; simp; omega) l
  rw [← List.mem_mergeSort (le := fun a b : Nat => decide (a ≤ b)) (l := l)]
  revert hs
  cases l.mergeSort (fun a b => decide (a ≤ b)) with
  | nil => simp
  | cons a t =>
    intro hs
    rw [List.pairwise_cons] at hs
    simp only [List.head?_cons, Option.some.injEq, List.mem_cons]
    constructor
    · intro h; exact Or.inl h.symm
    · intro h
      rcases h with h | h
      · exact h.symm
      · have := hs.1 0 h; simpa using this

/-- **C37 (what is computed)**: the automatic id is the number of slots, plus one when no slot has
id 0, whatever the ids in use are. -/
theorem C37_auto_id (l : List Nat) :
    createSlot l none =
      .ok (l ++ [l.length + if 0 ∈ l then 0 else 1], l.length + if 0 ∈ l then 0 else 1) := by
  have h : autoId l = some (l.length + if 0 ∈ l then 0 else 1) := by
    simp only [autoId, lastDiff_append, List.length_map, List.length_mergeSort, head_zero]
    congr 1; split <;> omega
  simp only [createSlot, h]

/-- The ids in use have no gap: with an id all smaller positive ids are in use. -/
def Gapless (l : List Nat) : Prop := ∀ i ∈ l, ∀ j, 1 ≤ j → j < i → j ∈ l

/-- A duplicate free list of numbers below `n` has at most `n` elements. -/
theorem nodup_bound : ∀ (n : Nat) (l : List Nat), l.Nodup → (∀ i ∈ l, i < n) → l.length ≤ n
  | 0, l, _, h => by
    cases l with
    | nil => exact Nat.le_refl _
    | cons a t => exact absurd (h a (by simp)) (by omega)
  | n + 1, l, hn, h => by
    have h1 := nodup_bound n (l.erase n) (hn.erase n) (by
      intro i hi
      have := h i (List.mem_of_mem_erase hi)
      have := (List.Nodup.mem_erase_iff hn).1 hi
      omega)
    by_cases hm : n ∈ l
    · have := List.length_erase_of_mem hm; omega
    · rw [List.erase_of_not_mem hm] at h1; omega

/-- A list containing all numbers from `a` below `a + n` has at least `n` elements. -/
theorem cover_bound : ∀ (n a : Nat) (l : List Nat), (∀ j, a ≤ j → j < a + n → j ∈ l) → n ≤ l.length
  | 0, _, _, _ => Nat.zero_le _
  | n + 1, a, l, h => by
    have hm : a + n ∈ l := h _ (by omega) (by omega)
    have h1 := cover_bound n a (l.erase (a + n)) (by
      intro j h1 h2
      exact (List.mem_erase_of_ne (by omega)).2 (h j h1 (by omega)))
    have := List.length_erase_of_mem hm
    have := List.length_pos_of_mem hm
    omega

/-- The ids of a gapless list are the ids from the first one on. -/
theorem gapless_iff {l : List Nat} (hn : l.Nodup) (hg : Gapless l) (j : Nat) :
    j ∈ l ↔ (if 0 ∈ l then 0 else 1) ≤ j ∧ j < l.length + if 0 ∈ l then 0 else 1 := by
  constructor
  · intro hj
    have h0 : (if 0 ∈ l then 0 else 1) ≤ j := by
      split
      · omega
      · rcases Nat.eq_zero_or_pos j with h | h
        · subst h; contradiction
        · omega
    refine ⟨h0, ?_⟩
    split
    · rename_i hz
      have := cover_bound (j + 1) 0 l (by
        intro i _ h2
        rcases Nat.eq_zero_or_pos i with h | h
        · subst h; exact hz
        · rcases Nat.lt_or_eq_of_le (show i ≤ j by omega) with h3 | h3
          · exact hg j hj i h h3
          · subst h3; exact hj)
      omega
    · rename_i hz
      have hj0 : 1 ≤ j := by
        rcases Nat.eq_zero_or_pos j with h | h
        · subst h; contradiction
        · exact h
      have := cover_bound j 1 l (by
        intro i h1 h2
        rcases Nat.lt_or_eq_of_le (show i ≤ j by omega) with h3 | h3
        · exact hg j hj i h1 h3
        · subst h3; exact hj)
      omega
  · intro ⟨h1, h2⟩
    by_cases hj : j ∈ l
    · exact hj
    · exfalso
      -- every id is then below j, and one of the numbers below is missing
      have hlt : ∀ i ∈ l, i < j := by
        intro i hi
        rcases Nat.lt_or_ge i j with h | h
        · exact h
        · rcases Nat.lt_or_eq_of_le h with h | h
          · by_cases hz : 0 ∈ l
            · rcases Nat.eq_zero_or_pos j with h0 | h0
              · subst h0; contradiction
              · exact absurd (hg i hi j h0 h) hj
            · simp only [hz, if_false] at h1
              exact absurd (hg i hi j h1 h) hj
          · subst h; contradiction
      by_cases hz : 0 ∈ l
      · simp only [hz, if_true] at h2
        have := nodup_bound j l hn hlt
        omega
      · simp only [hz, if_false] at h1 h2
        have h3 := nodup_bound j (0 :: l) (List.nodup_cons.2 ⟨hz, hn⟩) (by
          intro i hi
          rcases List.mem_cons.1 hi with h | h
          · omega
          · exact hlt i h)
        simp only [List.length_cons] at h3
        omega

/-- **C37, the part that holds**: when the ids in use have no gap, the new id is unused, and the ids
have no gap afterwards.  (Missing: ids with a gap, where it is false.) -/
theorem C37_fresh_partial {l : List Nat} (hn : l.Nodup) (hg : Gapless l) :
    ∃ i, createSlot l none = .ok (l ++ [i], i) ∧ i ∉ l ∧ (l ++ [i]).Nodup ∧ Gapless (l ++ [i]) := by
  refine ⟨_, C37_auto_id l, ?_⟩
  have hni : (l.length + if 0 ∈ l then 0 else 1) ∉ l := by
    rw [gapless_iff hn hg]; omega
  refine ⟨hni, ?_, ?_⟩
  · rw [List.nodup_append]
    refine ⟨hn, by simp, ?_⟩
    intro a ha b hb
    rw [List.mem_singleton] at hb
    intro e; subst e; rw [hb] at ha; exact hni ha
  · intro i hi j h1 h2
    rcases List.mem_append.1 hi with hi | hi
    · exact List.mem_append.2 (Or.inl (hg i hi j h1 h2))
    · rw [List.mem_singleton] at hi
      refine List.mem_append.2 (Or.inl ((gapless_iff hn hg j).2 ⟨?_, by omega⟩))
      split <;> omega

/-- **C37 (histories)**: any number of slots created without ids, from a mob without slots or with
gapless ids, all get different ids. -/
theorem C37_history_partial : ∀ (n : Nat) {l : List Nat}, l.Nodup → Gapless l →
    ∃ l', createMany n l = .ok l' ∧ l'.Nodup ∧ l'.length = l.length + n ∧ ∃ r, l' = l ++ r
  | 0, l, hn, _ => ⟨l, rfl, hn, rfl, [], by simp⟩
  | n + 1, l, hn, hg => by
    obtain ⟨i, h1, _, h3, h4⟩ := C37_fresh_partial hn hg
    obtain ⟨l', q1, q2, q3, r, q4⟩ := C37_history_partial n h3 h4
    refine ⟨l', ?_, q2, ?_, i :: r, ?_⟩
    · simp only [createMany, h1, bind, Except.bind]; exact q1
    · rw [q3]; simp; omega
    · rw [q4]; simp

/-- **C37 (explicit ids)**: a slot with an explicit id is created exactly when the id is unused. -/
theorem C37_explicit (l : List Nat) (i : Nat) :
    (i ∈ l → createSlot l (some i) = .error .valueError) ∧
    (i ∉ l → createSlot l (some i) = .ok (l ++ [i], i)) := by
  constructor <;> intro h <;> simp [createSlot, h]

/-- **C37, exactly when it fails**: the new id collides exactly when the number of slots (plus one
when there is no slot 0) is the id of a slot. -/
theorem C37_collision_iff (l : List Nat) :
    (∃ l' i, createSlot l none = .ok (l', i) ∧ i ∈ l) ↔
      (l.length + if 0 ∈ l then 0 else 1) ∈ l := by
  rw [C37_auto_id]
  constructor
  · rintro ⟨l', i, h, hi⟩
    simp only [Except.ok.injEq, Prod.mk.injEq] at h
    rw [h.2]; exact hi
  · intro h; exact ⟨_, _, rfl, h⟩

/-- **C37 counterexample**: three slots are created, the first is removed, and the next slot gets
id 3 although there is a slot 3; looking up id 3 finds the older one only. -/
theorem C37_gap_counterexample :
    createMany 3 [] = .ok [1, 2, 3] ∧ createSlot ([1, 2, 3].eraseIdx 0) none = .ok ([2, 3, 3], 3) ∧
    slotAt [2, 3, 3] 3 = .ok 1 := by
  refine ⟨?_, ?_, rfl⟩
  · simp [createMany, C37_auto_id, bind, Except.bind]
  · rw [C37_auto_id]; rfl

/-- The hypotheses are met, with and without a slot 0. -/
example : [2, 1, 3].Nodup ∧ Gapless [2, 1, 3] ∧ [0, 1, 2].Nodup ∧ Gapless [0, 1, 2] := by
  refine ⟨by decide, ?_, by decide, ?_⟩ <;>
  · intro i hi j h1 h2
    simp at hi ⊢
    omega

end Verif.Slots
