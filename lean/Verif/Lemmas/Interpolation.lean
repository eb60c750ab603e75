import Verif.Lemmas.Roots
import Verif.Spec.Interpolation
import Mathlib.Topology.Order.IntermediateValue
import Mathlib.Topology.Algebra.Polynomial
import Mathlib.Tactic.Positivity
/-! The curve of `Model/Interpolation`. -/
namespace Verif.Interpolation

open Curves

theorem curve_eq (a b c d : P) (s : ℝ) :
    curve a b c d s = (cubicBezier a.1 b.1 c.1 d.1 s, cubicBezier a.2 b.2 c.2 d.2 s) := by
  unfold curve mix cubicBezier
  refine Prod.ext ?_ ?_ <;> simp only <;> ring

theorem eps_pos : 0 < eps := by unfold eps; norm_num

theorem eps_small : eps ≤ 1 / 100 := by unfold eps; norm_num

/-- The slope between two parameters as a mean of four. -/
theorem slope_eq (a b c d s t : ℝ) :
    (d - a) * (cubicBezier a b c d t - cubicBezier a b c d s) =
      (t - s) * ((d - b) * (c - a) * (2 * s * (1 - s) + 2 * t * (1 - t) + s * (1 - t) + t * (1 - s)) +
        (b - a) * (c - a) * ((1 - s) ^ 2 + (1 - s) * (1 - t) + (1 - t) ^ 2) +
        (d - b) * (d - c) * (s ^ 2 + s * t + t ^ 2) +
        (b - a) * (d - c) * (4 * ((s - 1 / 2) ^ 2 + (s - 1 / 2) * (t - 1 / 2) + (t - 1 / 2) ^ 2))) := by
  unfold cubicBezier; ring

theorem quad_pos {p q : ℝ} (h : p ≠ q) : 0 < p ^ 2 + p * q + q ^ 2 := by
  have : 0 < (p - q) ^ 2 := by
    have := sub_ne_zero.2 h
    positivity
  nlinarith [sq_nonneg (p + q)]

/-- The time increases along the curve. -/
theorem mono {a b c d s t : ℝ} (hb : a ≤ b ∧ b ≤ d) (hc : a ≤ c ∧ c ≤ d) (hL : a < d)
    (hs : 0 ≤ s) (hst : s < t) (ht : t ≤ 1) : cubicBezier a b c d s < cubicBezier a b c d t := by
  have h := slope_eq a b c d s t
  set k0 := 2 * s * (1 - s) + 2 * t * (1 - t) + s * (1 - t) + t * (1 - s) with h0
  set k1 := (1 - s) ^ 2 + (1 - s) * (1 - t) + (1 - t) ^ 2 with h1
  set k2 := s ^ 2 + s * t + t ^ 2 with h2
  set k3 := 4 * ((s - 1 / 2) ^ 2 + (s - 1 / 2) * (t - 1 / 2) + (t - 1 / 2) ^ 2) with h3
  have p0 : 0 < k0 := by
    have q1 : 0 ≤ s * (1 - s) := mul_nonneg hs (by linarith)
    have q2 : 0 ≤ t * (1 - t) := mul_nonneg (by linarith) (by linarith)
    have q3 : 0 ≤ s * (1 - t) := mul_nonneg hs (by linarith)
    have q4 : 0 < t * (1 - s) := mul_pos (by linarith) (by linarith)
    rw [h0]; nlinarith
  have p1 : 0 < k1 := quad_pos (by intro h; linarith)
  have p2 : 0 < k2 := quad_pos (by intro h; linarith)
  have p3 : 0 < k3 := mul_pos (by norm_num) (quad_pos (by intro h; linarith))
  have w0 : 0 ≤ (d - b) * (c - a) := mul_nonneg (by linarith) (by linarith)
  have w1 : 0 ≤ (b - a) * (c - a) := mul_nonneg (by linarith) (by linarith)
  have w2 : 0 ≤ (d - b) * (d - c) := mul_nonneg (by linarith) (by linarith)
  have w3 : 0 ≤ (b - a) * (d - c) := mul_nonneg (by linarith) (by linarith)
  have sum : (d - b) * (c - a) + (b - a) * (c - a) + (d - b) * (d - c) + (b - a) * (d - c) =
      (d - a) ^ 2 := by ring
  set k := min (min k0 k1) (min k2 k3) with hk
  have pk : 0 < k := lt_min (lt_min p0 p1) (lt_min p2 p3)
  have l0 : k ≤ k0 := (min_le_left _ _).trans (min_le_left _ _)
  have l1 : k ≤ k1 := (min_le_left _ _).trans (min_le_right _ _)
  have l2 : k ≤ k2 := (min_le_right _ _).trans (min_le_left _ _)
  have l3 : k ≤ k3 := (min_le_right _ _).trans (min_le_right _ _)
  have hsum : k * (d - a) ^ 2 ≤ (d - b) * (c - a) * k0 + (b - a) * (c - a) * k1 +
      (d - b) * (d - c) * k2 + (b - a) * (d - c) * k3 := by
    rw [← sum]
    have := mul_le_mul_of_nonneg_left l0 w0
    have := mul_le_mul_of_nonneg_left l1 w1
    have := mul_le_mul_of_nonneg_left l2 w2
    have := mul_le_mul_of_nonneg_left l3 w3
    linarith
  have hpos : 0 < k * (d - a) ^ 2 := mul_pos pk (pow_pos (by linarith) 2)
  have : 0 < (d - a) * (cubicBezier a b c d t - cubicBezier a b c d s) := by
    rw [h]; exact mul_pos (by linarith) (by linarith)
  have := (mul_pos_iff_of_pos_left (show (0 : ℝ) < d - a by linarith)).1 this
  linarith

theorem bounds {s t : ℝ} (s1 : -(1 / 100) ≤ s) (s2 : s ≤ 101 / 100) (t1 : -(1 / 100) ≤ t) (t2 : t ≤ 101 / 100) :
    |2 * s * (1 - s) + 2 * t * (1 - t) + s * (1 - t) + t * (1 - s)| ≤ 4 ∧
    |(1 - s) ^ 2 + (1 - s) * (1 - t) + (1 - t) ^ 2| ≤ 4 ∧
    |s ^ 2 + s * t + t ^ 2| ≤ 4 ∧
    |4 * ((s - 1 / 2) ^ 2 + (s - 1 / 2) * (t - 1 / 2) + (t - 1 / 2) ^ 2)| ≤ 4 := by
  have p1 : 0 ≤ (s + 1 / 100) * (101 / 100 - s) := mul_nonneg (by linarith) (by linarith)
  have p2 : 0 ≤ (t + 1 / 100) * (101 / 100 - t) := mul_nonneg (by linarith) (by linarith)
  have p3 : 0 ≤ (s + 1 / 100) * (101 / 100 - t) := mul_nonneg (by linarith) (by linarith)
  have p4 : 0 ≤ (t + 1 / 100) * (101 / 100 - s) := mul_nonneg (by linarith) (by linarith)
  have p5 : 0 ≤ (t + 1 / 100) * (s + 1 / 100) := mul_nonneg (by linarith) (by linarith)
  have p6 : 0 ≤ (101 / 100 - t) * (101 / 100 - s) := mul_nonneg (by linarith) (by linarith)
  have p7 := sq_nonneg s
  have p8 := sq_nonneg t
  have p9 := sq_nonneg (s + t - 1)
  have p10 := sq_nonneg (s - t)
  ring_nf at p1 p2 p3 p4 p5 p6 p7 p8 p9 p10 ⊢
  refine ⟨abs_le.2 ⟨?_, ?_⟩, abs_le.2 ⟨?_, ?_⟩, abs_le.2 ⟨?_, ?_⟩, abs_le.2 ⟨?_, ?_⟩⟩ <;> linarith

/-- The speed along the curve is bounded, also a little outside. -/
theorem speed {a b c d s t : ℝ} (hb : a ≤ b ∧ b ≤ d) (hc : a ≤ c ∧ c ≤ d) (hL : a < d)
    (hs : -(1 / 100) ≤ s ∧ s ≤ 101 / 100) (ht : -(1 / 100) ≤ t ∧ t ≤ 101 / 100) :
    |cubicBezier a b c d t - cubicBezier a b c d s| ≤ 4 * (d - a) * |t - s| := by
  have h := slope_eq a b c d s t
  obtain ⟨s1, s2⟩ := hs
  obtain ⟨t1, t2⟩ := ht
  obtain ⟨b0, b1, b2, b3⟩ := bounds s1 s2 t1 t2
  set k0 := 2 * s * (1 - s) + 2 * t * (1 - t) + s * (1 - t) + t * (1 - s) with h0
  set k1 := (1 - s) ^ 2 + (1 - s) * (1 - t) + (1 - t) ^ 2 with h1
  set k2 := s ^ 2 + s * t + t ^ 2 with h2
  set k3 := 4 * ((s - 1 / 2) ^ 2 + (s - 1 / 2) * (t - 1 / 2) + (t - 1 / 2) ^ 2) with h3
  have w0 : 0 ≤ (d - b) * (c - a) := mul_nonneg (by linarith) (by linarith)
  have w1 : 0 ≤ (b - a) * (c - a) := mul_nonneg (by linarith) (by linarith)
  have w2 : 0 ≤ (d - b) * (d - c) := mul_nonneg (by linarith) (by linarith)
  have w3 : 0 ≤ (b - a) * (d - c) := mul_nonneg (by linarith) (by linarith)
  have sum : (d - b) * (c - a) + (b - a) * (c - a) + (d - b) * (d - c) + (b - a) * (d - c) =
      (d - a) ^ 2 := by ring
  set K := (d - b) * (c - a) * k0 + (b - a) * (c - a) * k1 +
      (d - b) * (d - c) * k2 + (b - a) * (d - c) * k3 with hK
  have bound : |K| ≤ 4 * (d - a) ^ 2 := by
    rw [← sum, abs_le]
    obtain ⟨x0, y0⟩ := abs_le.1 b0
    obtain ⟨x1, y1⟩ := abs_le.1 b1
    obtain ⟨x2, y2⟩ := abs_le.1 b2
    obtain ⟨x3, y3⟩ := abs_le.1 b3
    have := mul_le_mul_of_nonneg_left x0 w0
    have := mul_le_mul_of_nonneg_left x1 w1
    have := mul_le_mul_of_nonneg_left x2 w2
    have := mul_le_mul_of_nonneg_left x3 w3
    have := mul_le_mul_of_nonneg_left y0 w0
    have := mul_le_mul_of_nonneg_left y1 w1
    have := mul_le_mul_of_nonneg_left y2 w2
    have := mul_le_mul_of_nonneg_left y3 w3
    constructor <;> linarith
  have hd : 0 < d - a := by linarith
  have e : (d - a) * |cubicBezier a b c d t - cubicBezier a b c d s| = |t - s| * |K| := by
    rw [← abs_mul, ← h, abs_mul, abs_of_pos hd]
  have : (d - a) * |cubicBezier a b c d t - cubicBezier a b c d s| ≤ (d - a) * (4 * (d - a) * |t - s|) := by
    rw [e]
    calc |t - s| * |K| ≤ |t - s| * (4 * (d - a) ^ 2) := mul_le_mul_of_nonneg_left bound (abs_nonneg _)
      _ = (d - a) * (4 * (d - a) * |t - s|) := by ring
  exact le_of_mul_le_mul_left this hd

/-- Every time of the interval is there. -/
theorem reach {a b c d x : ℝ} (hx : a ≤ x ∧ x ≤ d) : ∃ s, 0 ≤ s ∧ s ≤ 1 ∧ cubicBezier a b c d s = x := by
  have hc : ContinuousOn (cubicBezier a b c d) (Set.Icc 0 1) := by
    unfold cubicBezier; fun_prop
  have h0 : cubicBezier a b c d 0 = a := by unfold cubicBezier; ring
  have h1 : cubicBezier a b c d 1 = d := by unfold cubicBezier; ring
  have := intermediate_value_Icc (zero_le_one) hc
  rw [h0, h1] at this
  obtain ⟨s, hs, h⟩ := this hx
  exact ⟨s, hs.1, hs.2, h⟩

/-- Values between. -/
theorem hull {a b c d lo hi s : ℝ} (hs : 0 ≤ s ∧ s ≤ 1) (ha : lo ≤ a ∧ a ≤ hi) (hb : lo ≤ b ∧ b ≤ hi)
    (hc : lo ≤ c ∧ c ≤ hi) (hd : lo ≤ d ∧ d ≤ hi) :
    lo ≤ cubicBezier a b c d s ∧ cubicBezier a b c d s ≤ hi := by
  obtain ⟨h0, h1⟩ := hs
  have hu : 0 ≤ 1 - s := by linarith
  have w1 : 0 ≤ (1 - s) * (1 - s) * (1 - s) := by positivity
  have w2 : 0 ≤ 3 * (1 - s) * (1 - s) * s := by positivity
  have w3 : 0 ≤ 3 * (1 - s) * s * s := by positivity
  have w4 : 0 ≤ s * s * s := by positivity
  have sum : (1 - s) * (1 - s) * (1 - s) + 3 * (1 - s) * (1 - s) * s + 3 * (1 - s) * s * s + s * s * s = 1 := by
    ring
  unfold cubicBezier
  simp only
  set v1 := (1 - s) * (1 - s) * (1 - s)
  set v2 := 3 * (1 - s) * (1 - s) * s
  set v3 := 3 * (1 - s) * s * s
  set v4 := s * s * s
  constructor
  · have := mul_le_mul_of_nonneg_left ha.1 w1
    have := mul_le_mul_of_nonneg_left hb.1 w2
    have := mul_le_mul_of_nonneg_left hc.1 w3
    have := mul_le_mul_of_nonneg_left hd.1 w4
    nlinarith
  · have := mul_le_mul_of_nonneg_left ha.2 w1
    have := mul_le_mul_of_nonneg_left hb.2 w2
    have := mul_le_mul_of_nonneg_left hc.2 w3
    have := mul_le_mul_of_nonneg_left hd.2 w4
    nlinarith

/-- The curve as a polynomial. -/
theorem poly (a b c d x r : ℝ) : cubicBezier a b c d r - x =
    (-(a - x) + 3 * (b - x) - 3 * (c - x) + (d - x)) * r ^ 3 +
    (3 * (a - x) - 6 * (b - x) + 3 * (c - x)) * r ^ 2 + (-3 * (a - x) + 3 * (b - x)) * r + (a - x) := by
  unfold cubicBezier; ring

theorem valid_bounds {r : ℝ} (h : validRoot r) : -(1 / 100) ≤ r ∧ r ≤ 101 / 100 := by
  have := eps_small
  exact ⟨by linarith [h.1], by linarith [h.2]⟩

theorem sq_bound {r : ℝ} (h : validRoot r) : |r ^ 2| ≤ 11 / 10 ∧ |r ^ 3| ≤ 11 / 10 := by
  obtain ⟨h1, h2⟩ := valid_bounds h
  have : |r| ≤ 101 / 100 := abs_le.2 ⟨by linarith, h2⟩
  have h0 := abs_nonneg r
  rw [abs_pow, abs_pow]
  constructor
  · nlinarith
  · have : |r| ^ 2 ≤ (101 / 100) ^ 2 := by nlinarith
    calc |r| ^ 3 = |r| ^ 2 * |r| := by ring
      _ ≤ (101 / 100) ^ 2 * (101 / 100) := by gcongr
      _ ≤ 11 / 10 := by norm_num

/-- What the solver returns: accepted, and the curve is there at the time, up to the tolerance. -/
theorem roots_sound {a b c d x : ℝ} {l : List ℝ}
    (h : bezierCubicRoots (a - x) (b - x) (c - x) (d - x) = .ok l) {r : ℝ} (hr : r ∈ l) :
    validRoot r ∧ |cubicBezier a b c d r - x| ≤ 3 * eps := by
  have he := eps_pos
  rw [poly]
  unfold bezierCubicRoots at h
  simp only at h
  set A := 3 * (a - x) - 6 * (b - x) + 3 * (c - x)
  set B := -3 * (a - x) + 3 * (b - x)
  set C := a - x
  set D := -(a - x) + 3 * (b - x) - 3 * (c - x) + (d - x)
  split at h
  · next hD =>
    split at h
    · next hA =>
      cases h
      unfold linearRoots at hr
      split at hr
      · cases hr
      · next hB =>
        rw [mem_valid] at hr
        obtain ⟨h1, hv⟩ := hr
        simp only [List.mem_cons, List.not_mem_nil, or_false] at h1
        refine ⟨hv, ?_⟩
        have hB0 : B ≠ 0 := by
          intro h0; rw [h0, abs_zero] at hB; exact hB he
        have e : B * r + C = 0 := by rw [h1]; field_simp; ring
        have e2 : D * r ^ 3 + A * r ^ 2 + B * r + C = D * r ^ 3 + A * r ^ 2 := by linarith
        rw [e2]
        obtain ⟨q2, q3⟩ := sq_bound hv
        calc |D * r ^ 3 + A * r ^ 2| ≤ |D| * |r ^ 3| + |A| * |r ^ 2| := by
              rw [← abs_mul, ← abs_mul]; exact abs_add_le _ _
          _ ≤ eps * (11 / 10) + eps * (11 / 10) := by gcongr
          _ ≤ 3 * eps := by linarith
    · next hA =>
      unfold quadraticRoots sqrt at h
      split at h
      · cases h
      · next hq =>
        cases h
        rw [mem_valid] at hr
        obtain ⟨h1, hv⟩ := hr
        simp only [List.mem_cons, List.not_mem_nil, or_false] at h1
        refine ⟨hv, ?_⟩
        have hA0 : A ≠ 0 := by
          intro h0; rw [h0, abs_zero] at hA; exact hA he
        have hs := Real.mul_self_sqrt (not_lt.1 hq)
        set q := Real.sqrt (B * B - 4 * A * C)
        have e : A * r ^ 2 + B * r + C = 0 := by
          have e4 : 4 * A * (A * r ^ 2 + B * r + C) = 0 := by
            rcases h1 with h1 | h1
            · have : 2 * A * r = q - B := by rw [h1]; field_simp
              linear_combination (2 * A * r + q + B) * this + hs
            · have : 2 * A * r = -B - q := by rw [h1]; field_simp
              linear_combination (2 * A * r - q + B) * this + hs
          rcases mul_eq_zero.1 e4 with h | h
          · exact absurd h (mul_ne_zero (by norm_num) hA0)
          · exact h
        have e2 : D * r ^ 3 + A * r ^ 2 + B * r + C = D * r ^ 3 := by linarith
        rw [e2]
        obtain ⟨q2, q3⟩ := sq_bound hv
        calc |D * r ^ 3| = |D| * |r ^ 3| := abs_mul _ _
          _ ≤ eps * (11 / 10) := by gcongr
          _ ≤ 3 * eps := by linarith
  · next hD =>
    cases h
    rw [cubicRoots_iff] at hr
    obtain ⟨hv, h1⟩ := hr
    refine ⟨hv, ?_⟩
    have hD0 : D ≠ 0 := by
      intro h0; rw [h0, abs_zero] at hD; exact hD he
    have e : D * r ^ 3 + A * r ^ 2 + B * r + C = 0 := by
      have : D * (r ^ 3 + A / D * r ^ 2 + B / D * r + C / D) = 0 := by rw [h1, mul_zero]
      rw [← this]; field_simp
    rw [e, abs_zero]; positivity

/-- The solver finds the solution, if the leading coefficients are zero or not too small. -/
theorem roots_complete {a b c d x s : ℝ} (hs : 0 ≤ s ∧ s ≤ 1) (hx : cubicBezier a b c d s = x)
    (h3 : d - 3 * c + 3 * b - a = 0 ∨ eps ≤ |d - 3 * c + 3 * b - a|)
    (h2 : d - 3 * c + 3 * b - a = 0 → c - 2 * b + a = 0 ∨ eps ≤ |3 * (c - 2 * b + a)|)
    (hL : eps ≤ d - a) :
    ∃ l, bezierCubicRoots (a - x) (b - x) (c - x) (d - x) = .ok l ∧ s ∈ l := by
  have he := eps_pos
  have hv : validRoot s := ⟨by linarith [hs.1], by linarith [hs.2]⟩
  have hp := poly a b c d x s
  rw [hx, sub_self] at hp
  unfold bezierCubicRoots
  simp only
  have hsum : (-(a - x) + 3 * (b - x) - 3 * (c - x) + (d - x)) + (3 * (a - x) - 6 * (b - x) + 3 * (c - x)) +
    (-3 * (a - x) + 3 * (b - x)) = d - a := by ring
  have eD : d - 3 * c + 3 * b - a = -(a - x) + 3 * (b - x) - 3 * (c - x) + (d - x) := by ring
  have eA : 3 * (c - 2 * b + a) = 3 * (a - x) - 6 * (b - x) + 3 * (c - x) := by ring
  have eA' : c - 2 * b + a = 0 → 3 * (a - x) - 6 * (b - x) + 3 * (c - x) = 0 := by
    intro h; rw [← eA, h, mul_zero]
  rw [eD] at h3 h2
  rw [eA] at h2
  set A := 3 * (a - x) - 6 * (b - x) + 3 * (c - x)
  set B := -3 * (a - x) + 3 * (b - x)
  set C := a - x
  set D := -(a - x) + 3 * (b - x) - 3 * (c - x) + (d - x)
  rcases h3 with h3 | h3
  · rw [if_pos (by rw [h3, abs_zero]; exact he)]
    rcases h2 h3 with h2 | h2
    · have hA := eA' h2
      rw [if_pos (by rw [hA, abs_zero]; exact he)]
      refine ⟨_, rfl, ?_⟩
      have hB : B = d - a := by rw [← hsum, h3, hA]; ring
      have hBp : 0 < B := by rw [hB]; linarith
      unfold linearRoots
      rw [if_neg (by rw [abs_of_pos hBp, hB]; linarith), mem_valid]
      refine ⟨?_, hv⟩
      simp only [List.mem_cons, List.not_mem_nil, or_false]
      rw [eq_div_iff hBp.ne']
      rw [h3, hA] at hp
      linarith
    · rw [if_neg (not_lt.2 h2)]
      have hA0 : A ≠ 0 := by
        intro h0; rw [h0, abs_zero] at h2; linarith
      have hq : (2 * A * s + B) * (2 * A * s + B) = B * B - 4 * A * C := by
        rw [h3] at hp
        linear_combination (-4 * A) * hp
      have hn : ¬ B * B - 4 * A * C < 0 := by
        rw [← hq]; exact not_lt.2 (mul_self_nonneg _)
      unfold quadraticRoots sqrt
      rw [if_neg hn]
      refine ⟨_, rfl, ?_⟩
      rw [mem_valid]
      refine ⟨?_, hv⟩
      simp only [List.mem_cons, List.not_mem_nil, or_false]
      rw [← hq, Real.sqrt_mul_self_eq_abs]
      have h2A : 2 * A ≠ 0 := mul_ne_zero (by norm_num) hA0
      rcases abs_choice (2 * A * s + B) with h | h
      · left; rw [h, eq_div_iff h2A]; ring
      · right; rw [h, eq_div_iff h2A]; ring
  · rw [if_neg (not_lt.2 h3)]
    refine ⟨_, rfl, ?_⟩
    rw [cubicRoots_iff]
    refine ⟨hv, ?_⟩
    have hD0 : D ≠ 0 := by
      intro h0; rw [h0, abs_zero] at h3; linarith
    have : s ^ 3 + A / D * s ^ 2 + B / D * s + C / D = (D * s ^ 3 + A * s ^ 2 + B * s + C) / D := by
      field_simp
    rw [this, ← hp, zero_div]

end Verif.Interpolation
