import Verif.Model.RationalText
import Mathlib.Tactic.Ring
import Mathlib.Tactic.Linarith
import Mathlib.Tactic.LinearCombination
import Mathlib.RingTheory.Coprime.Lemmas
import Mathlib.Algebra.Order.Ring.Abs
/-! # Lemmas for C66: `limit_denominator` -/
namespace Verif.RationalText

/-- What holds of the continued fraction in every round. -/
structure Inv (max N D s : Int) (c : Conv) : Prop where
  hN : N = c.p1 * c.n + c.p0 * c.d
  hD : D = c.q1 * c.n + c.q0 * c.d
  hs : c.p1 * c.q0 - c.p0 * c.q1 = s
  s1 : s = 1 ∨ s = -1
  h1 : c.q1 ≤ max
  h0 : c.q0 ≤ max
  st : (c.q1 = 0 ∧ c.q0 = 1 ∧ c.d = D) ∨ (1 ≤ c.q1 ∧ 0 ≤ c.q0 ∧ 0 ≤ c.d ∧ c.d < c.n)

theorem Inv.d_pos {max N D s : Int} {c : Conv} (hg : IsCoprime N D) (hD : max < D) (hm : 1 ≤ max) (h : Inv max N D s c) :
    0 < c.d := by
  rcases h.st with ⟨_, _, h3⟩ | ⟨h1, h2, h3, h4⟩
  · omega
  · rcases Int.lt_or_eq_of_le h3 with h5 | h5
    · exact h5
    · exfalso
      have e1 : N = c.p1 * c.n := by have := h.hN; rw [← h5] at this; simpa using this
      have e2 : D = c.q1 * c.n := by have := h.hD; rw [← h5] at this; simpa using this
      obtain ⟨a, b, hab⟩ := hg
      have : c.n * (a * c.p1 + b * c.q1) = 1 := by rw [e1, e2] at hab; linear_combination hab
      have hn : c.n = 1 := by
        rcases Int.eq_one_or_neg_one_of_mul_eq_one this with h | h
        · exact h
        · omega
      rw [hn] at e2
      have := h.h1
      omega

theorem limitLoop_ok {max N D : Int} (hg : IsCoprime N D) (hD : max < D) (hm : 1 ≤ max) :
    ∀ (fuel : Nat) (c : Conv) (s : Int), Inv max N D s c → c.d.toNat < fuel →
      ∃ c' s', limitLoop max fuel c = .ok c' ∧ Inv max N D s' c' ∧ 1 ≤ c'.q1 ∧ 0 ≤ c'.q0 ∧ 0 < c'.d ∧
        max < c'.q0 + c'.n / c'.d * c'.q1 := by
  intro fuel
  induction fuel with
  | zero => intro c s _ h; omega
  | succ fuel ih =>
    intro c s h hf
    have hd := h.d_pos hg hD hm
    unfold limitLoop
    rw [if_neg (by omega)]
    simp only
    by_cases hq : c.q0 + c.n / c.d * c.q1 > max
    · rw [if_pos hq]
      refine ⟨c, s, rfl, h, ?_, ?_, hd, hq⟩
      · rcases h.st with ⟨h1, h2, _⟩ | ⟨h1, _⟩
        · rw [h1, h2] at hq; omega
        · exact h1
      · rcases h.st with ⟨h1, h2, _⟩ | ⟨_, h1, _⟩ <;> omega
    · rw [if_neg hq]
      have hmod : c.n - c.n / c.d * c.d = c.n % c.d := by
        have := Int.emod_add_mul_ediv c.n c.d
        linear_combination -this
      have m0 := Int.emod_nonneg c.n (show c.d ≠ 0 by omega)
      have m1 := Int.emod_lt_of_pos c.n hd
      refine ih _ (-s) ⟨?_, ?_, ?_, ?_, ?_, ?_, ?_⟩ ?_
      · show N = (c.p0 + c.n / c.d * c.p1) * c.d + c.p1 * (c.n - c.n / c.d * c.d)
        rw [h.hN]; ring
      · show D = (c.q0 + c.n / c.d * c.q1) * c.d + c.q1 * (c.n - c.n / c.d * c.d)
        rw [h.hD]; ring
      · show (c.p0 + c.n / c.d * c.p1) * c.q1 - c.p1 * (c.q0 + c.n / c.d * c.q1) = -s
        rw [← h.hs]; ring
      · rcases h.s1 with h | h <;> omega
      · show c.q0 + c.n / c.d * c.q1 ≤ max
        omega
      · exact h.h1
      · right
        show 1 ≤ c.q0 + c.n / c.d * c.q1 ∧ 0 ≤ c.q1 ∧ 0 ≤ c.n - c.n / c.d * c.d ∧ c.n - c.n / c.d * c.d < c.d
        rw [hmod]
        refine ⟨?_, ?_, m0, m1⟩
        · rcases h.st with ⟨h1, h2, _⟩ | ⟨h1, h2, h3, h4⟩
          · rw [h1, h2]; omega
          · have : 1 ≤ c.n / c.d := by
              rw [Int.le_ediv_iff_mul_le hd]; omega
            have : 1 * 1 ≤ c.n / c.d * c.q1 := Int.mul_le_mul this h1 (by omega) (by omega)
            omega
        · rcases h.st with ⟨h1, _, _⟩ | ⟨h1, _⟩ <;> omega
      · show (c.n - c.n / c.d * c.d).toNat < fuel
        rw [hmod]; omega

/-- Closest among the fractions with denominators up to `max`, in integers. -/
def Best (max N D p q : Int) : Prop :=
  ∀ P Q : Int, 0 < Q → Q ≤ max → |p * D - N * q| * Q ≤ |P * D - N * Q| * q

theorem off_eq (n d p q : Int) : off n d p q = |p * d - n * q| := by
  unfold off
  exact Int.natCast_natAbs _

theorem limit_ok {max N D : Int} (hg : IsCoprime N D) (hD0 : 0 < D) (hm : 1 ≤ max) :
    ∃ p q, limit max N D = .ok (p, q) ∧ 0 < q ∧ q ≤ max ∧ IsCoprime p q ∧ Best max N D p q := by
  unfold limit
  by_cases hD : D ≤ max
  · rw [if_pos hD]
    refine ⟨N, D, rfl, hD0, hD, hg, ?_⟩
    intro P Q _ _
    have : N * D - N * D = 0 := by ring
    rw [this]; simp
    exact Int.mul_nonneg (abs_nonneg _) (by omega)
  rw [if_neg hD]
  have hD : max < D := by omega
  have h0 : Inv max N D 1 ⟨N, D, 0, 1, 1, 0⟩ := ⟨by simp, by simp, by simp, .inl rfl, by simp; omega, by simpa using hm, .inl ⟨rfl, rfl, rfl⟩⟩
  obtain ⟨c, s, e, h, hq1, hq0, hd, hbr⟩ := limitLoop_ok hg hD hm (D.toNat + 2) _ 1 h0 (by simp)
  rw [e]
  obtain ⟨n, d, p0, q0, p1, q1⟩ := c
  obtain ⟨hN, hD', hs, s1, g1, g0, st⟩ := h
  simp only [off_eq] at *
  obtain ⟨k, hk⟩ : ∃ k, k = (max - q0) / q1 := ⟨_, rfl⟩
  rw [← hk]
  have k0 : 0 ≤ k := by rw [hk]; exact Int.ediv_nonneg (by omega) (by omega)
  have k1 : k * q1 ≤ max - q0 := by rw [hk]; exact Int.ediv_mul_le _ (by omega)
  have k2 : max - q0 < (k + 1) * q1 := by rw [hk]; exact Int.lt_ediv_add_one_mul_self _ (by omega)
  have ka : k < n / d := by
    by_contra hc
    have : n / d * q1 ≤ k * q1 := Int.mul_le_mul_of_nonneg_right (by omega) (by omega)
    omega
  have hmd : (k + 1) * d ≤ n := by
    have a1 : (k + 1) * d ≤ n / d * d := Int.mul_le_mul_of_nonneg_right (by omega) (by omega)
    have a2 : n / d * d ≤ n := Int.ediv_mul_le _ (by omega)
    omega
  obtain ⟨b, hb⟩ : ∃ b, b = q0 + k * q1 := ⟨_, rfl⟩
  obtain ⟨r, hr⟩ : ∃ r, r = p0 + k * p1 := ⟨_, rfl⟩
  obtain ⟨m, hm'⟩ : ∃ m, m = n - k * d := ⟨_, rfl⟩
  rw [← hb, ← hr]
  have ss : s * s = 1 := by rcases s1 with h | h <;> rw [h] <;> rfl
  have as : |s| = 1 := by rcases s1 with h | h <;> rw [h] <;> rfl
  have b2 : max < b + q1 := by rw [hb]; linarith
  have b1 : 1 ≤ b := by omega
  have bm : b ≤ max := by omega
  have m1 : d ≤ m := by rw [hm']; linarith
  have det : p1 * b - r * q1 = s := by rw [hb, hr, ← hs]; ring
  have X1 : |p1 * D - N * q1| = d := by
    have : p1 * D - N * q1 = s * d := by rw [hN, hD', ← hs]; ring
    rw [this, abs_mul, as, one_mul, abs_of_pos hd]
  have Xb : |r * D - N * b| = m := by
    have : r * D - N * b = -(s * m) := by rw [hN, hD', ← hs, hr, hb, hm']; ring
    rw [this, abs_neg, abs_mul, as, one_mul, abs_of_pos (by omega)]
  have key : ∀ P Q : Int, 0 < Q → Q ≤ max →
      d * Q ≤ |P * D - N * Q| * q1 ∨ m * Q ≤ |P * D - N * Q| * b := by
    intro P Q hQ0 hQ
    obtain ⟨u, hu⟩ : ∃ u, u = s * (p1 * Q - P * q1) := ⟨_, rfl⟩
    obtain ⟨v, hv⟩ : ∃ v, v = s * (P * b - Q * r) := ⟨_, rfl⟩
    have eQ : Q = u * b + v * q1 := by
      rw [hu, hv]
      linear_combination (-1 : Int) * Q * ss - s * Q * det
    have eP : P = u * r + v * p1 := by
      rw [hu, hv]
      linear_combination (-1 : Int) * P * ss - s * P * det
    have x1 : p1 * D - N * q1 = s * d := by rw [hN, hD', ← hs]; ring
    have xb : r * D - N * b = -(s * m) := by rw [hN, hD', ← hs, hr, hb, hm']; ring
    have eX : P * D - N * Q = s * (v * d - u * m) := by
      rw [eQ, eP]
      linear_combination u * xb + v * x1
    have aX : |P * D - N * Q| = |v * d - u * m| := by rw [eX, abs_mul, as, one_mul]
    rw [aX]
    by_cases hu0 : u ≤ 0
    · left
      have t : 0 ≤ (-u) * (m * q1 + d * b) :=
        Int.mul_nonneg (by omega) (Int.add_nonneg (Int.mul_nonneg (by omega) (by omega)) (Int.mul_nonneg (by omega) (by omega)))
      have : d * Q ≤ (v * d - u * m) * q1 := by rw [eQ]; linarith
      exact this.trans (Int.mul_le_mul_of_nonneg_right (le_abs_self _) (by omega))
    · by_cases hv0 : v ≤ 0
      · right
        have t : 0 ≤ (-v) * (m * q1 + d * b) :=
          Int.mul_nonneg (by omega) (Int.add_nonneg (Int.mul_nonneg (by omega) (by omega)) (Int.mul_nonneg (by omega) (by omega)))
        have : m * Q ≤ (-(v * d - u * m)) * b := by rw [eQ]; linarith
        exact this.trans (Int.mul_le_mul_of_nonneg_right (neg_le_abs _) (by omega))
      · exfalso
        have t1 : 1 * b ≤ u * b := Int.mul_le_mul_of_nonneg_right (by omega) (by omega)
        have t2 : 1 * q1 ≤ v * q1 := Int.mul_le_mul_of_nonneg_right (by omega) (by omega)
        omega
  rw [X1, Xb]
  by_cases hc : d * b ≤ m * q1
  · rw [if_pos hc]
    refine ⟨p1, q1, rfl, by omega, g1, ⟨s * b, -(s * r), by linear_combination s * det + ss⟩, ?_⟩
    intro P Q hQ0 hQ
    rw [X1]
    rcases key P Q hQ0 hQ with h | h
    · exact h
    · have a1 : (d * b) * Q ≤ (m * q1) * Q := Int.mul_le_mul_of_nonneg_right hc (by omega)
      have a2 : (m * Q) * q1 ≤ (|P * D - N * Q| * b) * q1 := Int.mul_le_mul_of_nonneg_right h (by omega)
      have a3 : (d * Q) * b ≤ (|P * D - N * Q| * q1) * b := by linarith
      exact Int.le_of_mul_le_mul_right a3 (by omega)
  · rw [if_neg hc]
    refine ⟨r, b, rfl, by omega, bm, ⟨-(s * q1), s * p1, by linear_combination s * det + ss⟩, ?_⟩
    intro P Q hQ0 hQ
    rw [Xb]
    rcases key P Q hQ0 hQ with h | h
    · have a1 : (m * q1) * Q ≤ (d * b) * Q := Int.mul_le_mul_of_nonneg_right (by omega) (by omega)
      have a2 : (d * Q) * b ≤ (|P * D - N * Q| * q1) * b := Int.mul_le_mul_of_nonneg_right h (by omega)
      have a3 : (m * Q) * q1 ≤ (|P * D - N * Q| * b) * q1 := by linarith
      exact Int.le_of_mul_le_mul_right a3 (by omega)
    · exact h

end Verif.RationalText
