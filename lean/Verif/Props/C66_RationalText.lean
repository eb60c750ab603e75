import Verif.Lemmas.RationalText
import Verif.Lemmas.RationalFloat
import Mathlib.Algebra.Order.Field.Basic
import Mathlib.Algebra.Order.Ring.Rat
import Mathlib.Tactic.Positivity
/-!
# C66: rationals from texts and floats

A text that is a number becomes a fraction of that value, a text that is not is refused with
`ValueError`, and `str` of a fraction is read as the same fraction.  A float becomes the closest
fraction with a denominator that fits in an int32, when its numerator also fits.
-/
namespace Verif.Props.C66
open Verif.RationalText Verif.Spec.RationalText

/-! ## Texts -/

theorem times_neg (s : Sign) (n : Int) : (if isNeg s then -n else n) = s.times * n := by
  cases s <;> simp [isNeg, Sign.times]

theorem pow_ne (n : Nat) : (10 : ℚ) ^ n ≠ 0 := pow_ne_zero _ (by norm_num)

/-- Numerator and denominator before the sign, for a number without `/`. -/
theorem parts_point (l : Literal) (f e) (ht : l.tail = .point f e) :
    0 < (parts (toMatch l)).2 ∧ ((parts (toMatch l)).1 : ℚ) / (parts (toMatch l)).2 = l.value := by
  obtain ⟨pre, sg, w, tail, post⟩ := l
  simp only at ht
  subst ht
  have dec : ∃ n d : Int, 0 < d ∧ (n : ℚ) / d = (number w : ℚ) + (number (f.getD []) : ℚ) / 10 ^ (f.getD []).length ∧
      withDecimal (intOf (w.map digit)) (f.map (·.map digit)) = (n, d) := by
    match f with
    | none => exact ⟨number w, 1, by decide, by simp [number], by simp [withDecimal, intOf_digits]⟩
    | some [] => exact ⟨number w, 1, by decide, by simp [number], by simp [withDecimal, intOf_digits]⟩
    | some (k :: r) =>
      refine ⟨number w * 10 ^ (k :: r).length + number (k :: r), 10 ^ (k :: r).length, by positivity, ?_, ?_⟩
      · have := pow_ne (k :: r).length
        simp only [Option.getD_some]
        push_cast
        field_simp
      · have := intOf_digits (k :: r)
        simp only [List.map_cons] at this
        simp only [Option.map_some, List.map_cons, withDecimal, this, intOf_digits, List.length_cons, List.length_map]
  obtain ⟨n, d, hd, hv, hm⟩ := dec
  have hd' : (d : ℚ) ≠ 0 := by exact_mod_cast (by omega : d ≠ 0)
  have sgn : ∀ x : Int, (((if isNeg sg then -x else x : Int)) : ℚ) = (sg.times : ℚ) * x := by
    intro x; rw [times_neg]; push_cast; rfl
  unfold parts toMatch
  simp only [hm, Literal.value]
  match e with
  | none =>
    simp only [expOf, withExp, sgn, expValue, ← hv]
    exact ⟨hd, by ring⟩
  | some (u, s, x) =>
    have hx := intOf_digits x
    have plus : ∀ s, expOf (some (u, s, x)) = some (false, x.map digit) → s.times = 1 →
        0 < (withExp (n, d) (expOf (some (u, s, x)))).2 ∧
        (((if isNeg sg = true then -(withExp (n, d) (expOf (some (u, s, x)))).1 else (withExp (n, d) (expOf (some (u, s, x)))).1 : Int)) : ℚ) /
          ((withExp (n, d) (expOf (some (u, s, x)))).2 : Int) =
        (sg.times : ℚ) * (((number w : ℚ) + (number (f.getD []) : ℚ) / 10 ^ (f.getD []).length) * expValue (some (u, s, x))) := by
      intro s h1 h2
      rw [h1, sgn]
      simp only [withExp, expValue, h2, ← hv, hx, one_mul, zpow_natCast]
      exact ⟨hd, by push_cast; ring⟩
    cases s with
    | none => exact plus _ rfl rfl
    | plus => exact plus _ rfl rfl
    | minus =>
      have h1 : expOf (some (u, .minus, x)) = some (true, x.map digit) := rfl
      have h2 : Sign.times .minus = -1 := rfl
      rw [sgn]
      simp only [h1, withExp, hx, expValue, h2]
      by_cases h0 : number x = 0
      · simp only [h0, if_true, ← hv]
        refine ⟨hd, ?_⟩
        simp
        ring
      · simp only [h0, if_false]
        refine ⟨Int.mul_pos hd (by positivity), ?_⟩
        have := pow_ne (number x)
        simp only [← hv, neg_mul, one_mul, zpow_neg, zpow_natCast]
        push_cast
        field_simp

/-- **C66.**  A text that is a number is read as a fraction of its value, with a denominator that is not
negative.  Numerator and denominator that are written out are kept as they are, unreduced. -/
theorem C66_text (l : Literal) (h : l.Valid) (h0 : ∀ d, l.tail = .over d → number d ≠ 0) :
    ∃ n d : Int, ofText l.text = .ok (n, d) ∧ 0 < d ∧ (n : ℚ) / d = l.value ∧
      ∀ x, l.tail = .over x → n = l.sign.times * number l.whole ∧ d = number x := by
  unfold ofText
  rw [matchFormat_ok l h]
  simp only
  cases ht : l.tail with
  | point f e =>
    obtain ⟨h1, h2⟩ := parts_point l f e ht
    refine ⟨_, _, ?_, h1, h2, nofun⟩
    unfold make
    rw [if_neg (by omega)]
  | over d =>
    have hd := h0 d ht
    have hp : parts (toMatch l) = (l.sign.times * number l.whole, (number d : Int)) := by
      unfold parts toMatch
      simp only [ht, intOf_digits, times_neg]
    rw [hp]
    refine ⟨l.sign.times * number l.whole, number d, ?_, Int.natCast_pos.2 (Nat.pos_of_ne_zero hd), ?_, ?_⟩
    · unfold make
      rw [if_neg (show ¬ ((number d : Int) = 0) by exact_mod_cast hd)]
    · simp only [Literal.value, ht]
      push_cast
      ring
    · rintro x hx
      cases hx
      exact ⟨rfl, rfl⟩

/-- **C66.**  With the denominator 0 written out, `ZeroDivisionError` is raised, but `0/0` is 0. -/
theorem C66_text_zero (l : Literal) (h : l.Valid) (d) (ht : l.tail = .over d) (h0 : number d = 0) :
    ofText l.text = if number l.whole = 0 then .ok (0, 1) else .error .zeroDivision := by
  unfold ofText
  rw [matchFormat_ok l h]
  have hp : parts (toMatch l) = (l.sign.times * number l.whole, (number d : Int)) := by
    unfold parts toMatch
    simp only [ht, intOf_digits, times_neg]
  simp only [hp, make, h0, Nat.cast_zero, if_true]
  by_cases hw : number l.whole = 0
  · simp [hw]
  · have : l.sign.times * (number l.whole : Int) ≠ 0 := by
      refine mul_ne_zero ?_ (by exact_mod_cast hw)
      cases l.sign <;> decide
    simp [this, hw]

/-- **C66.**  `ValueError` is raised for just the texts that are no numbers. -/
theorem C66_text_only (s : Text) : ofText s = .error .valueError ↔ ¬ ∃ l : Literal, l.Valid ∧ l.text = s := by
  constructor
  · rintro h ⟨l, hv, rfl⟩
    unfold ofText at h
    rw [matchFormat_ok l hv] at h
    simp only [make] at h
    split at h
    · split at h <;> cases h
    · cases h
  · intro h
    unfold ofText
    cases hm : matchFormat s with
    | none => rfl
    | some m => exact absurd (matchFormat_of hm) h

theorem number_append (a b : List (Fin 10)) : number (a ++ b) = number a * 10 ^ b.length + number b := by
  induction a with
  | nil => simp [number]
  | cons k a ih => simp only [List.cons_append, number, List.length_append, ih]; ring

theorem number_decimal (n : Nat) : number (decimal n) = n ∧ decimal n ≠ [] := by
  induction n using Nat.strong_induction_on with
  | _ n ih =>
    rw [decimal]
    split
    · simp [number]
    · obtain ⟨h1, _⟩ := ih (n / 10) (by omega)
      refine ⟨?_, by simp⟩
      rw [number_append, h1]
      simp [number]
      omega

/-- **C66.**  `str` of a fraction is read as the same fraction, reduced or not. -/
theorem C66_str (n : Int) (d : Nat) (hd : 0 < d) : ofText (str n d) = .ok (n, (d : Int)) := by
  obtain ⟨n1, n2⟩ := number_decimal n.natAbs
  obtain ⟨d1, d2⟩ := number_decimal d
  have hs : ∃ s : Sign, s.text = (if n < 0 then ['-'] else []) ∧ s.times * (n.natAbs : Int) = n := by
    by_cases h : n < 0
    · exact ⟨.minus, by simp [h, Sign.text], by simp only [Sign.times]; omega⟩
    · exact ⟨.none, by simp [h, Sign.text], by simp only [Sign.times]; omega⟩
  obtain ⟨s, st, sv⟩ := hs
  by_cases h1 : d = 1
  · have he : str n d = (Literal.mk [] s (decimal n.natAbs) (.point none none) []).text := by
      simp [str, Literal.text, h1, st, Tail.text, expText]
    have hv : (Literal.mk [] s (decimal n.natAbs) (.point none none) []).Valid := ⟨by simp, by simp, .inl n2, by simp⟩
    rw [he]
    unfold ofText
    rw [matchFormat_ok _ hv]
    simp only [parts, toMatch, Option.map_none, expOf, withExp, withDecimal, intOf_digits, n1, times_neg, sv, make]
    rw [if_neg (by decide), h1]
    rfl
  · have he : str n d = (Literal.mk [] s (decimal n.natAbs) (.over (decimal d)) []).text := by
      simp [str, Literal.text, h1, st, Tail.text]
    have hv : (Literal.mk [] s (decimal n.natAbs) (.over (decimal d)) []).Valid := ⟨by simp, by simp, n2, d2⟩
    obtain ⟨a, b, e, _, _, hx⟩ := C66_text _ hv (by rintro x hx; cases hx; omega)
    obtain ⟨e1, e2⟩ := hx _ rfl
    rw [he, e, e1, e2]
    simp only [n1, d1, sv]

/-! ## Floats -/

/-- `p / q` is as close to `x` as any fraction with a denominator that fits. -/
def Closest (x : ℚ) (p q : Int) : Prop :=
  ∀ P Q : Int, 0 < Q → Q ≤ 0x7FFFFFFF → |(p : ℚ) / q - x| ≤ |(P : ℚ) / Q - x|

theorem dist_eq {p q N D : Int} (hq : 0 < q) (hD : 0 < D) :
    |(p : ℚ) / q - N / D| = ((|p * D - N * q| : Int) : ℚ) / (q * D) := by
  have h1 : (0 : ℚ) < q := by exact_mod_cast hq
  have h2 : (0 : ℚ) < D := by exact_mod_cast hD
  have : (p : ℚ) / q - N / D = (p * D - N * q) / (q * D) := by field_simp
  rw [this, abs_div, abs_of_pos (mul_pos h1 h2)]
  push_cast
  rfl

theorem closest_of {N D p q : Int} (hD : 0 < D) (hq : 0 < q) (h : Best 0x7FFFFFFF N D p q) :
    Closest ((N : ℚ) / D) p q := by
  intro P Q hQ0 hQ
  rw [dist_eq hq hD, dist_eq hQ0 hD]
  have h1 : (0 : ℚ) < q := by exact_mod_cast hq
  have h2 : (0 : ℚ) < D := by exact_mod_cast hD
  have h3 : (0 : ℚ) < Q := by exact_mod_cast hQ0
  rw [div_le_div_iff₀ (mul_pos h1 h2) (mul_pos h3 h2)]
  have h4 : ((|p * D - N * q| : Int) : ℚ) * Q ≤ ((|P * D - N * Q| : Int) : ℚ) * q := by exact_mod_cast h P Q hQ0 hQ
  have := mul_le_mul_of_nonneg_right h4 h2.le
  linarith

/-- **C66.**  For a float `N / D` in lowest terms there is a closest fraction in lowest terms whose denominator fits in
an int32.  It is the value if its numerator fits as well. -/
theorem C66_float (N D : Int) (hg : IsCoprime N D) (hD : 0 < D) :
    ∃ p q : Int, 0 < q ∧ q ≤ 0x7FFFFFFF ∧ IsCoprime p q ∧ Closest ((N : ℚ) / D) p q ∧
      (|p| ≤ 0x7FFFFFFF → ofFloat N D = .ok (p, q)) := by
  obtain ⟨p, q, e, h1, h2, h3, h4⟩ := limit_ok (max := big) hg hD (by decide)
  refine ⟨p, q, h1, h2, h3, closest_of hD h1 h4, ?_⟩
  intro hp
  have := abs_le.1 hp
  unfold ofFloat
  rw [e]
  simp only
  rw [if_neg]
  show ¬ (p > 0x7FFFFFFF ∨ p < -0x7FFFFFFF)
  omega

/-- **C66.**  A float between -1 and 1 always becomes the closest fraction. -/
theorem C66_float_small (N D : Int) (hg : IsCoprime N D) (hD : 0 < D) (hx : |(N : ℚ) / D| ≤ 1) :
    ∃ p q : Int, ofFloat N D = .ok (p, q) ∧ 0 < q ∧ q ≤ 0x7FFFFFFF ∧ |p| ≤ q ∧ Closest ((N : ℚ) / D) p q := by
  obtain ⟨p, q, h1, h2, _, h4, h5⟩ := C66_float N D hg hD
  have q0 : (0 : ℚ) < q := by exact_mod_cast h1
  obtain ⟨x1, x2⟩ := abs_le.1 hx
  have hp : |p| ≤ q := by
    rw [abs_le]
    constructor
    · by_contra hc
      have hc : (p : ℚ) < -q := by exact_mod_cast (by omega : p < -q)
      have c1 : (p : ℚ) / q < -1 := by rw [div_lt_iff₀ q0]; linarith
      have := h4 (-1) 1 (by decide) (by decide)
      rw [abs_of_neg (by linarith), abs_of_nonpos (by push_cast; linarith)] at this
      push_cast at this
      linarith
    · by_contra hc
      have hc : (q : ℚ) < p := by exact_mod_cast (by omega : q < p)
      have c1 : 1 < (p : ℚ) / q := by rw [lt_div_iff₀ q0]; linarith
      have := h4 1 1 (by decide) (by decide)
      rw [abs_of_pos (by linarith), abs_of_nonneg (by push_cast; linarith)] at this
      push_cast at this
      linarith
  exact ⟨p, q, h5 (hp.trans h2), h1, h2, hp, h4⟩

/-- **C66.**  A float near enough to a fraction that fits in int32s becomes just that fraction. -/
theorem C66_float_near (N D : Int) (hg : IsCoprime N D) (hD : 0 < D) (a b : Int) (hab : IsCoprime a b) (hb : 0 < b)
    (hb2 : b ≤ 0x7FFFFFFF) (ha : |a| ≤ 0x7FFFFFFF) (hx : |(a : ℚ) / b - N / D| * (2 * b * 0x7FFFFFFF) < 1) :
    ofFloat N D = .ok (a, b) := by
  obtain ⟨p, q, h1, h2, h3, h4, h5⟩ := C66_float N D hg hD
  have q0 : (0 : ℚ) < q := by exact_mod_cast h1
  have b0 : (0 : ℚ) < b := by exact_mod_cast hb
  have q2 : (q : ℚ) ≤ 0x7FFFFFFF := by exact_mod_cast h2
  have hcl := h4 a b hb hb2
  have tri : |(p : ℚ) / q - a / b| ≤ 2 * |(a : ℚ) / b - N / D| := by
    have : (p : ℚ) / q - a / b = (p / q - N / D) - (a / b - N / D) := by ring
    rw [this]
    exact (abs_sub _ _).trans (by linarith)
  have heq : |(p : ℚ) / q - a / b| = ((|p * b - a * q| : Int) : ℚ) / (q * b) := dist_eq h1 hb
  have hz : p * b - a * q = 0 := by
    by_contra hne
    have : (1 : Int) ≤ |p * b - a * q| := Int.one_le_abs hne
    have hthis : (1 : ℚ) ≤ ((|p * b - a * q| : Int) : ℚ) := by exact_mod_cast this
    have e1 : (1 : ℚ) / (q * b) ≤ |(p : ℚ) / q - a / b| := by
      rw [heq]; exact div_le_div_of_nonneg_right hthis (mul_pos q0 b0).le
    have e2 : (1 : ℚ) ≤ 2 * |(a : ℚ) / b - N / D| * (q * b) := by
      have := e1.trans tri
      rwa [div_le_iff₀ (mul_pos q0 b0)] at this
    have e3 : |(a : ℚ) / b - N / D| * (2 * b * q) ≤ |(a : ℚ) / b - N / D| * (2 * b * 0x7FFFFFFF) := by
      refine mul_le_mul_of_nonneg_left ?_ (abs_nonneg _)
      exact mul_le_mul_of_nonneg_left q2 (by linarith)
    linarith
  have e : p * b = a * q := by omega
  have d1 : q ∣ b := by
    have : q ∣ p * b := ⟨a, by linarith⟩
    exact h3.symm.dvd_of_dvd_mul_left this
  have d2 : b ∣ q := by
    have : b ∣ a * q := ⟨p, by linarith⟩
    exact hab.symm.dvd_of_dvd_mul_left this
  have hqb : q = b := Int.dvd_antisymm h1.le hb.le d1 d2
  subst hqb
  have hpa : p = a := Int.eq_of_mul_eq_mul_right (by omega) e
  subst hpa
  exact h5 ha

/-- **C66.**  A rate `a / b` with `|a| < 2 ^ 21` that is given as the nearest float is stored as `a / b`. -/
theorem C66_float_rate (N D : Int) (hg : IsCoprime N D) (hD : 0 < D) (a b : Int) (hab : IsCoprime a b) (hb : 0 < b)
    (hb2 : b ≤ 0x7FFFFFFF) (ha : |a| < 2 ^ 21) (hx : |(a : ℚ) / b - N / D| ≤ |(a : ℚ) / b| / 2 ^ 53) :
    ofFloat N D = .ok (a, b) := by
  have b0 : (0 : ℚ) < b := by exact_mod_cast hb
  refine C66_float_near N D hg hD a b hab hb hb2 (by omega) ?_
  have ha' : |(a : ℚ)| < 2 ^ 21 := by exact_mod_cast ha
  have h1 : |(a : ℚ) / b - N / D| * (2 * b * 0x7FFFFFFF) ≤ |(a : ℚ) / b| / 2 ^ 53 * (2 * b * 0x7FFFFFFF) :=
    mul_le_mul_of_nonneg_right hx (by positivity)
  have h2 : |(a : ℚ) / b| / 2 ^ 53 * (2 * b * 0x7FFFFFFF) = |(a : ℚ)| * (2 * 0x7FFFFFFF / 2 ^ 53) := by
    rw [abs_div, abs_of_pos b0]
    field_simp
  have h3 : |(a : ℚ)| * (2 * 0x7FFFFFFF / 2 ^ 53) ≤ 2 ^ 21 * (2 * 0x7FFFFFFF / 2 ^ 53) :=
    mul_le_mul_of_nonneg_right ha'.le (by norm_num)
  have h4 : (2 : ℚ) ^ 21 * (2 * 0x7FFFFFFF / 2 ^ 53) < 1 := by norm_num
  linarith

/-- **C66, partial.**  For a float up to `0x7FFFFFFF` whose closest fraction has a numerator that does not fit, the
value is `0x7FFFFFFF` over the largest denominator for which it is not less than the closest fraction.
Missing is a bound on the distance that does not depend on the denominator: there is none, see
`C66_float_large_counterexample`. -/
theorem C66_float_large_partial (N D : Int) (hg : IsCoprime N D) (hD : 0 < D) :
    ∃ p q : Int, 0 < q ∧ q ≤ 0x7FFFFFFF ∧ Closest ((N : ℚ) / D) p q ∧
      (0x7FFFFFFF < p → (p : ℚ) / q ≤ 0x7FFFFFFF → ∃ d : Int, ofFloat N D = .ok (0x7FFFFFFF, d) ∧ 0 < d ∧ d ≤ 0x7FFFFFFF ∧
        (p : ℚ) / q ≤ 0x7FFFFFFF / d ∧ (0x7FFFFFFF : ℚ) / (d + 1) < p / q) := by
  obtain ⟨p, q, e, h1, h2, h3, h4⟩ := limit_ok (max := big) hg hD (by decide)
  refine ⟨p, q, h1, h2, closest_of hD h1 h4, ?_⟩
  intro hp hle
  have q0 : (0 : ℚ) < q := by exact_mod_cast h1
  have p0 : 0 < p := by omega
  have p0' : (0 : ℚ) < p := by exact_mod_cast p0
  have hle' : p ≤ 0x7FFFFFFF * q := by
    rw [div_le_iff₀ q0] at hle
    exact_mod_cast hle
  obtain ⟨d, hd⟩ : ∃ d, d = (q * big) / p := ⟨_, rfl⟩
  have hb : big = 0x7FFFFFFF := rfl
  have k1 : d * p ≤ q * 0x7FFFFFFF := by rw [hd, hb]; exact Int.ediv_mul_le _ (by omega)
  have k2 : q * 0x7FFFFFFF < (d + 1) * p := by rw [hd, hb]; exact Int.lt_ediv_add_one_mul_self _ p0
  have d0 : 0 < d := by
    have : 1 ≤ d := by rw [hd, hb, Int.le_ediv_iff_mul_le p0]; omega
    omega
  have d0' : (0 : ℚ) < d := by exact_mod_cast d0
  have dq : d ≤ 0x7FFFFFFF := by
    by_contra hc
    have : q * p ≤ d * p := Int.mul_le_mul_of_nonneg_right (by rw [hb] at h2; omega) p0.le
    have : q * 0x7FFFFFFF < q * p := Int.mul_lt_mul_of_pos_left hp h1
    omega
  refine ⟨d, ?_, d0, dq, ?_, ?_⟩
  · unfold ofFloat
    rw [e]
    simp only
    rw [if_pos (.inl hp), Int.tdiv_eq_ediv_of_nonneg (Int.mul_nonneg h1.le (by decide)), ← hd]
    rfl
  · rw [div_le_div_iff₀ q0 d0']
    have : (p : ℚ) * d ≤ 0x7FFFFFFF * q := by exact_mod_cast (by linarith : p * d ≤ 0x7FFFFFFF * q)
    exact this
  · rw [div_lt_div_iff₀ (by linarith) q0]
    have : (0x7FFFFFFF : ℚ) * q < p * (d + 1) := by exact_mod_cast (by linarith : 0x7FFFFFFF * q < p * (d + 1))
    exact this

/-- A float as large as 1610612735.5 is stored as 2147483647. -/
theorem C66_float_large_counterexample : ofFloat 3221225471 2 = .ok (2147483647, 1) := by rfl

/-- A float above `0x7FFFFFFF`, like 3e9, gets the denominator 0. -/
theorem C66_float_huge_counterexample : ofFloat 3000000000 1 = .ok (2147483647, 0) := by rfl

/-- A negative float, like that of -π, can get a denominator that is negative. -/
theorem C66_float_negative_counterexample :
    ofFloat (-884279719003555) 281474976710656 = .ok (2147483647, -683565275) := by rfl

/-! ## Examples -/

/-- `" -1.25e-3 "` is a number; so is `"30000/1001"`. -/
def example1 : Literal := ⟨[' '], .minus, [1], .point (some [2, 5]) (some (false, .minus, [3])), [' ']⟩
def example2 : Literal := ⟨[], .none, [3, 0, 0, 0, 0], .over [1, 0, 0, 1], []⟩

theorem C66_text_example :
    example1.Valid ∧ example1.text = " -1.25e-3 ".toList ∧ ofText " -1.25e-3 ".toList = .ok (-125, 100000) ∧
    example2.Valid ∧ example2.text = "30000/1001".toList ∧ ofText "30000/1001".toList = .ok (30000, 1001) ∧
    ofText "4/8".toList = .ok (4, 8) ∧ ofText "1/2/3".toList = .error .valueError ∧ ofText "1/-2".toList = .error .valueError ∧
    ofText "".toList = .error .valueError ∧ str (-4) 8 = "-4/8".toList := by
  refine ⟨⟨by decide, by decide, .inl (by decide), ?_⟩, by decide +kernel, by decide +kernel, ⟨by decide, by decide, by decide, by decide⟩,
    by decide +kernel, by decide +kernel, by decide +kernel, by decide +kernel, by decide +kernel, by decide +kernel, by decide +kernel⟩
  intro u s x h
  cases h
  decide

/-- `"5/0"` and `"0/0"` are numbers with the denominator 0. -/
theorem C66_text_zero_example :
    (Literal.mk [] .none [5] (.over [0]) []).Valid ∧ ofText "5/0".toList = .error .zeroDivision ∧
    ofText "0/0".toList = .ok (0, 1) := by
  refine ⟨⟨by decide, by decide, by decide, by decide⟩, by decide +kernel, by decide +kernel⟩

/-- The float 29.97 is stored as 2997/100, the float of 24000/1001, which is the nearest one, as 24000/1001, and that of π
with the largest numerator. -/
theorem C66_float_example :
    ofFloat 1054475631502295 35184372088832 = .ok (2997, 100) ∧
    IsCoprime (6748650790265479 : Int) 281474976710656 ∧ IsCoprime (24000 : Int) 1001 ∧
    |((24000 : Int) : ℚ) / (1001 : Int) - (6748650790265479 : Int) / (281474976710656 : Int)| ≤
      |((24000 : Int) : ℚ) / (1001 : Int)| / 2 ^ 53 ∧
    ofFloat 6748650790265479 281474976710656 = .ok (24000, 1001) ∧
    limit 0x7FFFFFFF 884279719003555 281474976710656 = .ok (2698940791, 859099536) ∧
    ofFloat 884279719003555 281474976710656 = .ok (0x7FFFFFFF, 683565275) ∧
    ofFloat (-1) 3 = .ok (-1, 3) := by
  refine ⟨rfl, ?_, ?_, ?_, rfl, rfl, rfl, rfl⟩
  · rw [Int.isCoprime_iff_gcd_eq_one]; decide +kernel
  · rw [Int.isCoprime_iff_gcd_eq_one]; decide +kernel
  · rw [abs_of_pos (a := ((24000 : Int) : ℚ) / (1001 : Int)) (by norm_num), abs_le]
    constructor <;> norm_num

end Verif.Props.C66
