import Verif.Model.Interpolation
import Mathlib.Tactic.Linarith
import Mathlib.Tactic.LinearCombination
import Mathlib.Tactic.FieldSimp
import Mathlib.Tactic.Ring
/-! The solutions of a cubic equation (`Model/Interpolation`). -/
namespace Verif.Interpolation

theorem cubeRoot_pow (x : ℝ) : cubeRoot x ^ 3 = x := by
  have key : ∀ y : ℝ, 0 ≤ y → (y ^ (1 / 3 : ℝ)) ^ 3 = y := by
    intro y hy
    rw [← Real.rpow_natCast, ← Real.rpow_mul hy]
    norm_num
  unfold cubeRoot
  split
  · next h =>
    rw [mul_pow, key _ (abs_nonneg x), abs_of_neg h]; ring
  · next h => exact key x (not_lt.1 h)

theorem cube_inj {x y : ℝ} (h : x ^ 3 = y ^ 3) : x = y := by
  have := Odd.strictMono_pow (R := ℝ) (n := 3) (by decide)
  exact this.injective h

theorem mem_valid {l : List ℝ} {r : ℝ} : r ∈ valid l ↔ r ∈ l ∧ validRoot r := by
  simp [valid, List.mem_filter]

/-- The depressed cubic. -/
theorem depress (a b c r : ℝ) :
    r ^ 3 + a * r ^ 2 + b * r + c =
      (r + a / 3) ^ 3 + (3 * b - a * a) / 3 * (r + a / 3) + (2 * a * a * a - 9 * a * b + 27 * c) / 27 := by
  ring

theorem cos_add_two_thirds (x : ℝ) :
    Real.cos ((x + 2 * Real.pi) / 3) = -Real.cos (x / 3) / 2 - Real.sqrt 3 / 2 * Real.sin (x / 3) := by
  have h : (x + 2 * Real.pi) / 3 = x / 3 + (Real.pi - Real.pi / 3) := by ring
  rw [h, Real.cos_add, Real.cos_pi_sub, Real.sin_pi_sub, Real.cos_pi_div_three, Real.sin_pi_div_three]
  ring

theorem cos_add_four_thirds (x : ℝ) :
    Real.cos ((x + 4 * Real.pi) / 3) = -Real.cos (x / 3) / 2 + Real.sqrt 3 / 2 * Real.sin (x / 3) := by
  have h : (x + 4 * Real.pi) / 3 = x / 3 + (Real.pi / 3 + Real.pi) := by ring
  rw [h, Real.cos_add, Real.cos_add_pi, Real.sin_add_pi, Real.cos_pi_div_three, Real.sin_pi_div_three]
  ring

theorem threeRoots_iff {a p q : ℝ} (hd : q / 2 * (q / 2) + p / 3 * (p / 3) * (p / 3) < 0) (r : ℝ) :
    r ∈ threeRoots a p q ↔ validRoot r ∧ (r + a / 3) ^ 3 + p * (r + a / 3) + q = 0 := by
  have hp : p < 0 := by
    by_contra h
    have h : 0 ≤ p := not_lt.1 h
    have : 0 ≤ p / 3 * (p / 3) * (p / 3) := by positivity
    nlinarith [mul_self_nonneg (q / 2)]
  have hm : 0 < -p / 3 := by linarith
  have hm3 : 0 < -p / 3 * (-p / 3) * (-p / 3) := by positivity
  set R := Real.sqrt (-p / 3 * (-p / 3) * (-p / 3)) with hR
  have hRpos : 0 < R := Real.sqrt_pos.2 hm3
  have hR2 : R * R = -p / 3 * (-p / 3) * (-p / 3) := Real.mul_self_sqrt hm3.le
  have hq : q / 2 * (q / 2) < R * R := by rw [hR2]; linarith [show -p / 3 * (-p / 3) * (-p / 3) = -(p / 3 * (p / 3) * (p / 3)) by ring]
  have habs : |q / 2| < R := abs_lt_of_sq_lt_sq (by nlinarith) hRpos.le
  obtain ⟨hq1, hq2⟩ := abs_lt.1 habs
  have ht1 : -1 ≤ -q / (2 * R) := by rw [le_div_iff₀ (by positivity)]; linarith
  have ht2 : -q / (2 * R) ≤ 1 := by rw [div_le_iff₀ (by positivity)]; linarith
  have hclamp : max (-1) (min 1 (-q / (2 * R))) = -q / (2 * R) := by
    rw [min_eq_right ht2, max_eq_right ht1]
  set m := cubeRoot R with hmdef
  have hmR : m ^ 3 = R := cubeRoot_pow R
  have hm2 : m ^ 2 = -p / 3 := by
    apply cube_inj
    calc (m ^ 2) ^ 3 = m ^ 3 * m ^ 3 := by ring
      _ = (-p / 3) ^ 3 := by rw [hmR, hR2]; ring
  set φ := Real.arccos (-q / (2 * R)) with hφ
  have hcos : Real.cos φ = -q / (2 * R) := Real.cos_arccos ht1 ht2
  set C := Real.cos (φ / 3) with hC
  set S := Real.sin (φ / 3) with hS
  have hCS : S ^ 2 + C ^ 2 = 1 := Real.sin_sq_add_cos_sq _
  have h3 : 4 * C ^ 3 - 3 * C = -q / (2 * R) := by
    rw [← hcos, hC, ← Real.cos_three_mul]; congr 1; ring
  have h3' : 2 * m ^ 3 * (4 * C ^ 3 - 3 * C) = -q := by
    rw [h3, hmR]; field_simp
  have hs3 : Real.sqrt 3 ^ 2 = 3 := Real.sq_sqrt (by norm_num)
  have fact : ∀ y : ℝ, y ^ 3 + p * y + q =
      (y - 2 * m * C) * (y - 2 * m * (-C / 2 - Real.sqrt 3 / 2 * S)) *
        (y - 2 * m * (-C / 2 + Real.sqrt 3 / 2 * S)) := by
    intro y
    have e1 : (y - 2 * m * (-C / 2 - Real.sqrt 3 / 2 * S)) * (y - 2 * m * (-C / 2 + Real.sqrt 3 / 2 * S)) =
        (y + m * C) ^ 2 - m ^ 2 * Real.sqrt 3 ^ 2 * S ^ 2 := by ring
    have e2 : S ^ 2 = 1 - C ^ 2 := by linarith
    have e3 : p = -3 * m ^ 2 := by linarith
    rw [mul_assoc, e1, hs3, e2, e3]
    linear_combination h3'
  have mem : r ∈ threeRoots a p q ↔ validRoot r ∧ (r = 2 * m * C - a / 3 ∨
      r = 2 * m * (-C / 2 - Real.sqrt 3 / 2 * S) - a / 3 ∨ r = 2 * m * (-C / 2 + Real.sqrt 3 / 2 * S) - a / 3) := by
    unfold threeRoots
    simp only [mem_valid, List.mem_cons, List.not_mem_nil, or_false]
    rw [← hR, hclamp, ← hφ, ← hmdef, cos_add_two_thirds, cos_add_four_thirds, ← hC, ← hS]
    exact and_comm
  rw [mem, fact, mul_eq_zero, mul_eq_zero, or_assoc]
  constructor
  · rintro ⟨hv, h | h | h⟩
    · exact ⟨hv, .inl (by linarith)⟩
    · exact ⟨hv, .inr (.inl (by linarith))⟩
    · exact ⟨hv, .inr (.inr (by linarith))⟩
  · rintro ⟨hv, h | h | h⟩
    · exact ⟨hv, .inl (by linarith)⟩
    · exact ⟨hv, .inr (.inl (by linarith))⟩
    · exact ⟨hv, .inr (.inr (by linarith))⟩

theorem twoRoots_iff {a p q : ℝ} (hd : q / 2 * (q / 2) + p / 3 * (p / 3) * (p / 3) = 0) (r : ℝ) :
    r ∈ twoRoots a (q / 2) ↔ validRoot r ∧ (r + a / 3) ^ 3 + p * (r + a / 3) + q = 0 := by
  obtain ⟨u, hu, h⟩ : ∃ u : ℝ, u ^ 3 = -(q / 2) ∧ twoRoots a (q / 2) = valid [2 * u - a / 3, -u - a / 3] := by
    unfold twoRoots
    split
    · exact ⟨_, cubeRoot_pow _, rfl⟩
    · refine ⟨_, ?_, rfl⟩
      have := cubeRoot_pow (q / 2)
      linear_combination -this
  have hp : p / 3 = -u ^ 2 := by
    apply cube_inj
    have : (-u ^ 2) ^ 3 = -(u ^ 3) ^ 2 := by ring
    rw [this, hu]
    linear_combination hd
  have fact : (r + a / 3) ^ 3 + p * (r + a / 3) + q = (r + a / 3 - 2 * u) * (r + a / 3 + u) ^ 2 := by
    have e1 : p = -3 * u ^ 2 := by linarith
    have e2 : q = -2 * u ^ 3 := by linarith
    rw [e1, e2]; ring
  rw [h, fact, mem_valid, mul_eq_zero, pow_eq_zero_iff (by norm_num)]
  simp only [List.mem_cons, List.not_mem_nil, or_false]
  constructor
  · rintro ⟨h | h, hv⟩
    · exact ⟨hv, .inl (by linarith)⟩
    · exact ⟨hv, .inr (by linarith)⟩
  · rintro ⟨hv, h | h⟩
    · exact ⟨.inl (by linarith), hv⟩
    · exact ⟨.inr (by linarith), hv⟩

theorem oneRoot_iff {a p q : ℝ} (hd : 0 < q / 2 * (q / 2) + p / 3 * (p / 3) * (p / 3)) (r : ℝ) :
    r ∈ oneRoot a (q / 2) (q / 2 * (q / 2) + p / 3 * (p / 3) * (p / 3)) ↔
      validRoot r ∧ (r + a / 3) ^ 3 + p * (r + a / 3) + q = 0 := by
  set D := q / 2 * (q / 2) + p / 3 * (p / 3) * (p / 3) with hD
  have hs : Real.sqrt D * Real.sqrt D = D := Real.mul_self_sqrt hd.le
  set s := Real.sqrt D with hsd
  have hu := cubeRoot_pow (s - q / 2)
  have hv := cubeRoot_pow (s + q / 2)
  set u := cubeRoot (s - q / 2) with hud
  set v := cubeRoot (s + q / 2) with hvd
  have huv : u * v = p / 3 := by
    apply cube_inj
    rw [mul_pow, hu, hv]
    linear_combination hs
  have hy : (u - v) ^ 3 + p * (u - v) + q = 0 := by
    have e : p = 3 * (u * v) := by linarith
    rw [e]; linear_combination hu - hv
  have mem : r ∈ oneRoot a (q / 2) D ↔ r = u - v - a / 3 ∧ validRoot r := by
    unfold oneRoot
    simp only [mem_valid, List.mem_cons, List.not_mem_nil, or_false]
    rw [← hsd, ← hud, ← hvd]
  rw [mem]
  set y := u - v with hyd
  have fact : (r + a / 3) ^ 3 + p * (r + a / 3) + q =
      (r + a / 3 - y) * ((r + a / 3) ^ 2 + (r + a / 3) * y + y ^ 2 + p) := by
    linear_combination hy
  have pos : 0 < 3 * y ^ 2 + 4 * p := by
    have e : 27 * 4 * D = (3 * y ^ 2 + 4 * p) * (3 * y ^ 2 + p) ^ 2 := by
      have : q = -(y ^ 3 + p * y) := by linarith
      rw [hD, this]; ring
    by_contra h
    have h := not_lt.1 h
    have : (3 * y ^ 2 + 4 * p) * (3 * y ^ 2 + p) ^ 2 ≤ 0 := mul_nonpos_of_nonpos_of_nonneg h (sq_nonneg _)
    linarith
  constructor
  · rintro ⟨rfl, hv⟩
    refine ⟨hv, ?_⟩
    rw [fact]; ring
  · rintro ⟨hv, h⟩
    rw [fact] at h
    rcases mul_eq_zero.1 h with h | h
    · exact ⟨by linarith, hv⟩
    · exfalso
      nlinarith [sq_nonneg (2 * (r + a / 3) + y)]

/-- The list has exactly the solutions that are accepted. -/
theorem cubicRoots_iff (a b c r : ℝ) :
    r ∈ cubicRoots a b c ↔ validRoot r ∧ r ^ 3 + a * r ^ 2 + b * r + c = 0 := by
  rw [depress]
  unfold cubicRoots
  simp only
  split
  · next h => exact threeRoots_iff h r
  · split
    · next h => exact twoRoots_iff h r
    · next h1 h2 => exact oneRoot_iff (lt_of_le_of_ne (not_lt.1 h1) (Ne.symm h2)) r

end Verif.Interpolation
