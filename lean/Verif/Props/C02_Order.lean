import Verif.Model.MobID
/-! # C02: equality and ordering of AUID and MobID form a total order -/
namespace Verif

/-- Lexicographic order of byte strings: a common prefix, then a smaller byte. -/
def LexLt (a b : Bytes) : Prop :=
  ∃ (p : Bytes) (x y : UInt8) (s t : Bytes), a = p ++ x :: s ∧ b = p ++ y :: t ∧ x < y

theorem unBe_lt_iff_lex {a b : Bytes} (h : a.length = b.length) : unBe a < unBe b ↔ LexLt a b := by
  induction a generalizing b with
  | nil =>
    cases b with
    | nil =>
      constructor
      · intro h; omega
      · rintro ⟨p, x, y, s, t, h1, _, _⟩; simp at h1
    | cons _ _ => simp at h
  | cons x a ih =>
    cases b with
    | nil => simp at h
    | cons y b =>
      simp at h
      rw [unBe_cons, unBe_cons, h]
      have ha := unBe_lt a
      have hb := unBe_lt b
      rw [h] at ha
      constructor
      · intro hlt
        by_cases hxy : x = y
        · subst hxy
          obtain ⟨p, u, v, s, t, e1, e2, e3⟩ := (ih h).mp (by omega)
          exact ⟨x :: p, u, v, s, t, by rw [e1]; rfl, by rw [e2]; rfl, e3⟩
        · refine ⟨[], x, y, a, b, rfl, rfl, ?_⟩
          rw [UInt8.lt_iff_toNat_lt]
          rcases Nat.lt_trichotomy x.toNat y.toNat with h1 | h1 | h1
          · exact h1
          · exact absurd (UInt8.toNat_inj.mp h1) hxy
          · have : (y.toNat + 1) * 256 ^ b.length ≤ x.toNat * 256 ^ b.length := Nat.mul_le_mul_right _ h1
            rw [Nat.add_mul] at this
            omega
      · rintro ⟨p, u, v, s, t, e1, e2, e3⟩
        cases p with
        | nil =>
          simp at e1 e2
          obtain ⟨rfl, rfl⟩ := e1
          obtain ⟨rfl, rfl⟩ := e2
          rw [UInt8.lt_iff_toNat_lt] at e3
          have : (x.toNat + 1) * 256 ^ b.length ≤ y.toNat * 256 ^ b.length := Nat.mul_le_mul_right _ e3
          rw [Nat.add_mul] at this
          omega
        | cons q p =>
          simp at e1 e2
          obtain ⟨rfl, e1⟩ := e1
          obtain ⟨rfl, e2⟩ := e2
          have := (ih h).mpr ⟨p, u, v, s, t, e1, e2, e3⟩
          omega

namespace Auid

theorem int_inj {a b : Bytes} (ha : a.length = 16) (hb : b.length = 16) (h : int a = int b) : a = b := by
  rw [int_eq_unBe ha, int_eq_unBe hb] at h
  have := unBe_inj (by rw [swap_length, swap_length, ha, hb]) h
  have := congrArg swap this
  rwa [swap_swap ha, swap_swap hb] at this

/-- AUID: `==` is equality of ints. -/
theorem C02_auid_eq {a b : Bytes} (ha : a.length = 16) (hb : b.length = 16) :
    eq a b = true ↔ int a = int b := by
  constructor
  · intro h; rw [eq, beq_iff_eq] at h; rw [h]
  · intro h; rw [eq, beq_iff_eq]; exact int_inj ha hb h

/-- AUID: `<` is a strict total order compatible with `==`. -/
theorem C02_auid_order {a b c : Bytes} (ha : a.length = 16) (hb : b.length = 16) :
    lt a a = false ∧
    (lt a b = true → lt b c = true → lt a c = true) ∧
    ((lt a b = true ∧ eq a b = false ∧ lt b a = false) ∨
     (lt a b = false ∧ eq a b = true ∧ lt b a = false) ∨
     (lt a b = false ∧ eq a b = false ∧ lt b a = true)) := by
  have h := C02_auid_eq ha hb
  refine ⟨by simp [lt], by simp only [lt, decide_eq_true_eq]; omega, ?_⟩
  rw [← Bool.not_eq_true (eq a b), h]
  simp only [lt, decide_eq_true_eq, decide_eq_false_iff_not]
  omega

/-- AUID: the order is the lexicographic order of the printed (big-endian) form. -/
theorem C02_auid_lex {a b : Bytes} (ha : a.length = 16) (hb : b.length = 16) :
    lt a b = true ↔ LexLt (bytesBe a) (bytesBe b) := by
  simp only [lt, decide_eq_true_eq]
  rw [int_eq_unBe ha, int_eq_unBe hb]
  exact unBe_lt_iff_lex (by rw [swap_length, swap_length, ha, hb])

example : ∃ a b : Bytes, a.length = 16 ∧ b.length = 16 ∧ lt a b = true ∧ ¬ LexLt a b := by
  refine ⟨[2, 0, 0, 0, 0, 0, 0, 0, 0, 0, 0, 0, 0, 0, 0, 0], [1, 1, 0, 0, 0, 0, 0, 0, 0, 0, 0, 0, 0, 0, 0, 0], rfl, rfl, by decide, ?_⟩
  intro h; have := (unBe_lt_iff_lex (by rfl)).mpr h; revert this; decide

end Auid

namespace MobID

/-- MobID: `==` is equality of ints. -/
theorem C02_mobid_eq {a b : Bytes} (h : a.length = b.length) : eq a b = true ↔ int a = int b := by
  constructor
  · intro h; rw [eq, beq_iff_eq] at h; rw [h]
  · intro h'; rw [eq, beq_iff_eq]; exact unBe_inj h h'

/-- MobID: `<` is a strict total order compatible with `==`, `<=`, `>`, `>=`, and it is the
lexicographic order of the bytes. -/
theorem C02_mobid_order {a b c : Bytes} (h : a.length = b.length) :
    lt a a = false ∧
    (lt a b = true → lt b c = true → lt a c = true) ∧
    ((lt a b = true ∧ eq a b = false ∧ gt a b = false) ∨
     (lt a b = false ∧ eq a b = true ∧ gt a b = false) ∨
     (lt a b = false ∧ eq a b = false ∧ gt a b = true)) ∧
    (gt a b = lt b a) ∧
    (le a b = (lt a b || eq a b)) ∧ (ge a b = (gt a b || eq a b)) ∧
    (lt a b = true ↔ LexLt a b) := by
  have h0 := C02_mobid_eq h
  have h1 : eq a b = decide (int a = int b) := by
    rw [Bool.eq_iff_iff, h0, decide_eq_true_eq]
  refine ⟨by simp [lt], by simp only [lt, decide_eq_true_eq]; omega, ?_, rfl, ?_, ?_, ?_⟩
  · simp only [h1, lt, gt, decide_eq_true_eq, decide_eq_false_iff_not]; omega
  · rw [Bool.eq_iff_iff]; simp only [h1, lt, le, Bool.or_eq_true, decide_eq_true_eq]; omega
  · rw [Bool.eq_iff_iff]; simp only [h1, gt, ge, Bool.or_eq_true, decide_eq_true_eq]; omega
  · simp only [lt, decide_eq_true_eq]; exact unBe_lt_iff_lex h

example : ∃ a b : Bytes, a.length = b.length ∧ a.length = 32 ∧ lt a b = true :=
  ⟨List.replicate 32 1, List.replicate 31 1 ++ [2], rfl, rfl, by decide⟩

end MobID
end Verif
