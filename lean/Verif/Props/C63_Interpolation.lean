import Verif.Lemmas.Interpolation
import Verif.Props.C39_Keyframes
/-!
# C63: the value of a parameter at any time

The keyframes are in increasing order of time (C39).  Arithmetic is exact (`Model/Interpolation`).
-/
namespace Verif.Interpolation

open Curves Keyframes

theorem ltReal_total : Total ltReal := by
  refine ⟨by simp [ltReal], ?_, ?_⟩
  · intro a b c h1 h2
    simp only [ltReal, decide_eq_true_eq] at *
    exact lt_trans h1 h2
  · intro a b
    simp only [ltReal, decide_eq_true_eq]
    exact lt_trichotomy a b

/-- One keyframe after the other. -/
def InOrder (l : List Key) : Prop := l.Pairwise fun a b => a.time < b.time

theorem InOrder.times {l : List Key} (h : InOrder l) : Increasing ltReal (l.map (·.time)) := by
  unfold Increasing
  rw [List.pairwise_map]
  exact h.imp (by intro a b h; simpa [ltReal] using h)

theorem InOrder.lt {l : List Key} (h : InOrder l) {i j : Nat} {a b : Key}
    (hij : i < j) (ha : l[i]? = some a) (hb : l[j]? = some b) : a.time < b.time := by
  obtain ⟨hi, rfl⟩ := List.getElem?_eq_some_iff.1 ha
  obtain ⟨hj, rfl⟩ := List.getElem?_eq_some_iff.1 hb
  exact List.pairwise_iff_getElem.1 h i j hi hj hij

theorem item_some {l : List Key} {i : Nat} {a : Key} (h : l[i]? = some a) : item l i = .ok a := by
  unfold item; rw [h]

/-- The index found for a time. -/
theorem index_eq {l : List Key} (hs : InOrder l) {i : Nat} {a : Key} (ha : l[i]? = some a) {t : ℝ}
    (h1 : a.time ≤ t ∨ i = 0) (h2 : ∀ b, l[i + 1]? = some b → t < b.time) :
    nearestIndex ltReal (l.map (·.time)) t = .ok i := by
  have hne : l ≠ [] := by rintro rfl; simp at ha
  obtain ⟨r, hr, hn⟩ := C39_nearest ltReal_total t hs.times (by simpa using hne)
  rw [hr]
  congr 1
  have hrl : r < l.length := by simpa using hn.inside
  have hil := (List.getElem?_eq_some_iff.1 ha).1
  rcases Nat.lt_trichotomy r i with h | h | h
  · exfalso
    have := hn.after i a.time h (by simp [ha])
    simp only [ltReal, decide_eq_true_eq] at this
    rcases h1 with h1 | h1
    · linarith
    · omega
  · exact h
  · exfalso
    have hr' : l[r]? = some l[r] := List.getElem?_eq_getElem hrl
    have hb : l[i + 1]? = some l[i + 1] := List.getElem?_eq_getElem (by omega)
    have q1 := h2 _ hb
    rcases hn.upto l[r].time (by simp [hr']) with q2 | q2
    · simp only [ltReal, decide_eq_false_iff_not, not_lt] at q2
      rcases Nat.lt_or_ge (i + 1) r with h3 | h3
      · have := hs.lt h3 hb hr'
        linarith
      · have e : r = i + 1 := by omega
        subst e
        linarith
    · omega

theorem between_eq {l : List Key} (hs : InOrder l) {i : Nat} {a b : Key} (ha : l[i]? = some a)
    (hb : l[i + 1]? = some b) {t : ℝ} (h1 : a.time ≤ t) (h2 : t < b.time) (k : Interp) :
    valueAt k l t = if k = .constant then .ok a.value else between k l i a b t := by
  unfold valueAt
  rw [index_eq hs ha (.inl h1) (by intro c hc; rw [hb] at hc; cases hc; exact h2)]
  simp only [bind, Except.bind]
  rw [item_some ha]
  simp only
  have hl := (List.getElem?_eq_some_iff.1 hb).1
  rw [if_neg (by rintro (h | h); exacts [by linarith, by omega])]
  split
  · rfl
  · rw [item_some hb]

/-- **C63 (before)**: before the first keyframe the value is that of the first keyframe. -/
theorem C63_before {l : List Key} (hs : InOrder l) {a : Key} (ha : l[0]? = some a) {t : ℝ}
    (ht : t < a.time) (k : Interp) : valueAt k l t = .ok a.value := by
  unfold valueAt
  rw [index_eq hs ha (.inr rfl) (by
    intro b hb; have := hs.lt (by omega) ha hb; linarith)]
  simp only [bind, Except.bind]
  rw [item_some ha]
  simp only
  rw [if_pos (.inl ht)]

/-- **C63 (after)**: from the last keyframe on the value is that of the last keyframe. -/
theorem C63_after {l : List Key} (hs : InOrder l) {a : Key} (ha : l.getLast? = some a) {t : ℝ}
    (ht : a.time ≤ t) (k : Interp) : valueAt k l t = .ok a.value := by
  rw [List.getLast?_eq_getElem?] at ha
  have hl := (List.getElem?_eq_some_iff.1 ha).1
  have hn : l[l.length - 1 + 1]? = none := by
    rw [List.getElem?_eq_none_iff]; omega
  unfold valueAt
  rw [index_eq hs ha (.inl ht) (by intro b hb; rw [hn] at hb; cases hb)]
  simp only [bind, Except.bind]
  rw [item_some ha]
  simp only
  rw [if_pos (.inr (by omega))]

/-- **C63 (constant)**: with constant interpolation the value of a keyframe holds until the next one. -/
theorem C63_constant {l : List Key} (hs : InOrder l) {i : Nat} {a b : Key} (ha : l[i]? = some a)
    (hb : l[i + 1]? = some b) {t : ℝ} (h1 : a.time ≤ t) (h2 : t < b.time) :
    valueAt .constant l t = .ok a.value := by
  rw [between_eq hs ha hb h1 h2, if_pos rfl]

/-- **C63 (linear)**: with linear interpolation the value is on the line between the keyframes. -/
theorem C63_linear {l : List Key} (hs : InOrder l) {i : Nat} {a b : Key} (ha : l[i]? = some a)
    (hb : l[i + 1]? = some b) {t : ℝ} (h1 : a.time ≤ t) (h2 : t < b.time) :
    ∃ y s, valueAt .linear l t = .ok y ∧ Fraction s ∧ mix a.at b.at s = (t, y) := by
  have hL : 0 < b.time - a.time := by linarith
  refine ⟨lerp a.value b.value ((t - a.time) / (b.time - a.time)), (t - a.time) / (b.time - a.time),
    ?_, ⟨div_nonneg (by linarith) hL.le, (div_le_one hL).2 (by linarith)⟩, ?_⟩
  · rw [between_eq hs ha hb h1 h2, if_neg (by decide)]
    unfold between div
    simp only
    rw [if_neg hL.ne']
    rfl
  · unfold mix lerp Key.at
    refine Prod.ext ?_ ?_
    · simp only; field_simp; ring
    · simp only; ring

theorem mix_time (a h : P) (x : ℝ) (hx : h.1 - a.1 ≠ 0) :
    mix a h ((x - a.1) / (h.1 - a.1)) = (x, a.2 + (h.2 - a.2) * (x - a.1) / (h.1 - a.1)) := by
  unfold mix
  refine Prod.ext ?_ ?_ <;> simp only <;> field_simp <;> ring

theorem outHandle_spec {p0 p1 p3 : P} (h : p0.1 < p3.1) :
    ∃ g, outHandle p0 p1 p3 = .ok g ∧ Cut p0 p3 p1 g ∧ p0.1 ≤ g.1 ∧ g.1 ≤ p3.1 := by
  unfold outHandle
  split
  · next h1 =>
    have hne : p1.1 - p0.1 ≠ 0 := by have := h1; intro h0; simp only [gt_iff_lt] at h1; linarith
    have hpos : 0 < p1.1 - p0.1 := by simp only [gt_iff_lt] at h1; linarith
    simp only [gt_iff_lt] at h1
    unfold scaleHandle div
    rw [if_neg hne]
    refine ⟨_, rfl, ⟨?_, ?_, ?_⟩, h.le, le_refl _⟩
    · intro hb
      have := hb.2
      rw [max_eq_right h.le] at this
      exact absurd h1 (not_lt.2 this)
    · intro _
      refine ⟨rfl, (p3.1 - p0.1) / (p1.1 - p0.1), ⟨div_nonneg (by linarith) hpos.le, (div_le_one hpos).2 (by linarith)⟩, ?_⟩
      rw [mix_time _ _ _ hne]
    · intro hb
      exact absurd hb (not_lt.2 (mul_nonneg hpos.le (by linarith)))
  · next h1 =>
    have h1 := not_lt.1 h1
    split
    · next h2 =>
      refine ⟨_, rfl, ⟨?_, ?_, fun _ => rfl⟩, le_refl _, h.le⟩
      · intro hb
        have := hb.1
        rw [min_eq_left h.le] at this
        exact absurd h2 (not_lt.2 this)
      · intro hb
        exact absurd hb (not_lt.2 (mul_nonpos_of_nonpos_of_nonneg (by linarith) (by linarith)))
    · next h2 =>
      have h2 := not_lt.1 h2
      refine ⟨_, rfl, ⟨fun _ => rfl, ?_, ?_⟩, h2, h1⟩
      · intro hb
        exact absurd hb (not_lt.2 (mul_nonpos_of_nonpos_of_nonneg (by linarith) (by linarith)))
      · intro hb
        exact absurd hb (not_lt.2 (mul_nonneg (by linarith) (by linarith)))

theorem inHandle_spec {p0 p2 p3 : P} (h : p0.1 < p3.1) :
    ∃ g, inHandle p0 p2 p3 = .ok g ∧ Cut p3 p0 p2 g ∧ p0.1 ≤ g.1 ∧ g.1 ≤ p3.1 := by
  unfold inHandle
  split
  · next h1 =>
    have hne : p2.1 - p3.1 ≠ 0 := by intro h0; linarith
    have hneg : p2.1 - p3.1 < 0 := by linarith
    unfold scaleHandle div
    rw [if_neg hne]
    refine ⟨_, rfl, ⟨?_, ?_, ?_⟩, le_refl _, h.le⟩
    · intro hb
      have := hb.1
      rw [min_eq_right h.le] at this
      exact absurd h1 (not_lt.2 this)
    · intro _
      refine ⟨rfl, (p0.1 - p3.1) / (p2.1 - p3.1),
        ⟨div_nonneg_of_nonpos (by linarith) hneg.le, (div_le_one_of_neg hneg).2 (by linarith)⟩, ?_⟩
      rw [mix_time _ _ _ hne]
    · intro hb
      exact absurd hb (not_lt.2 (mul_nonneg_of_nonpos_of_nonpos hneg.le (by linarith)))
  · next h1 =>
    have h1 := not_lt.1 h1
    split
    · next h2 =>
      simp only [gt_iff_lt] at h2
      refine ⟨_, rfl, ⟨?_, ?_, fun _ => rfl⟩, h.le, le_refl _⟩
      · intro hb
        have := hb.2
        rw [max_eq_left h.le] at this
        exact absurd h2 (not_lt.2 this)
      · intro hb
        exact absurd hb (not_lt.2 (mul_nonpos_of_nonneg_of_nonpos (by linarith) (by linarith)))
    · next h2 =>
      have h2 := not_lt.1 h2
      refine ⟨_, rfl, ⟨fun _ => rfl, ?_, ?_⟩, h1, h2⟩
      · intro hb
        exact absurd hb (not_lt.2 (mul_nonpos_of_nonneg_of_nonpos (by linarith) (by linarith)))
      · intro hb
        exact absurd hb (not_lt.2 (mul_nonneg_of_nonpos_of_nonpos (by linarith) (by linarith)))

/-- The rest of `bezier_interpolate` after the handles. -/
theorem bezier_eq {p0 p1 p2 p3 g h : P} {x : ℝ} (hL : p0.1 < p3.1) (hg : outHandle p0 p1 p3 = .ok g)
    (hh : inHandle p0 p2 p3 = .ok h) :
    bezierInterpolate p0 p1 p2 p3 x =
      (bezierCubicRoots (p0.1 - x) (g.1 - x) (h.1 - x) (p3.1 - x) >>= fun roots =>
        match roots with
        | [] => .error .assertion
        | r :: _ => .ok (cubicBezier p0.2 g.2 h.2 p3.2 (min 1 (max 0 r)))) := by
  unfold bezierInterpolate
  rw [if_neg (not_le.2 hL), hg, hh]
  rfl

/-- The clamped root. -/
theorem clamp_spec {r : ℝ} (h : validRoot r) :
    0 ≤ min 1 (max 0 r) ∧ min 1 (max 0 r) ≤ 1 ∧ |min 1 (max 0 r) - r| ≤ eps := by
  have he := eps_pos
  obtain ⟨h1, h2⟩ := h
  refine ⟨le_min zero_le_one (le_max_left _ _), min_le_left _ _, ?_⟩
  rcases le_total r 0 with h | h
  · rw [max_eq_left h, min_eq_right zero_le_one, abs_le]
    constructor <;> linarith
  · rw [max_eq_right h]
    rcases le_total r 1 with h' | h'
    · rw [min_eq_right h', sub_self, abs_zero]; exact he.le
    · rw [min_eq_left h', abs_le]
      constructor <;> linarith

theorem bezier_ok {p0 p1 p2 p3 : P} {x y : ℝ} (hL : p0.1 < p3.1)
    (hy : bezierInterpolate p0 p1 p2 p3 x = .ok y) :
    ∃ g h s, Cut p0 p3 p1 g ∧ Cut p3 p0 p2 h ∧ Fraction s ∧ (curve p0 g h p3 s).2 = y ∧
      |(curve p0 g h p3 s).1 - x| ≤ (4 * (p3.1 - p0.1) + 3) * eps := by
  obtain ⟨g, hg, cg, g1, g2⟩ := outHandle_spec (p1 := p1) hL
  obtain ⟨h, hh, ch, h1, h2⟩ := inHandle_spec (p2 := p2) hL
  rw [bezier_eq hL hg hh] at hy
  cases hr : bezierCubicRoots (p0.1 - x) (g.1 - x) (h.1 - x) (p3.1 - x) with
  | error e => rw [hr] at hy; cases hy
  | ok l =>
    rw [hr] at hy
    cases l with
    | nil => cases hy
    | cons r l =>
      obtain ⟨hv, hx⟩ := roots_sound hr (List.mem_cons_self ..)
      obtain ⟨c1, c2, c3⟩ := clamp_spec hv
      refine ⟨g, h, min 1 (max 0 r), cg, ch, ⟨c1, c2⟩, ?_, ?_⟩
      · rw [curve_eq]
        simp only [bind, Except.bind] at hy
        cases hy; rfl
      · rw [curve_eq]
        simp only
        have hsp := speed (s := r) (t := min 1 (max 0 r)) ⟨g1, g2⟩ ⟨h1, h2⟩ hL (valid_bounds hv)
          ⟨by linarith, by linarith⟩
        have : cubicBezier p0.1 g.1 h.1 p3.1 (min 1 (max 0 r)) - x =
          (cubicBezier p0.1 g.1 h.1 p3.1 (min 1 (max 0 r)) - cubicBezier p0.1 g.1 h.1 p3.1 r) +
            (cubicBezier p0.1 g.1 h.1 p3.1 r - x) := by ring
        rw [this]
        refine (abs_add_le _ _).trans ?_
        have h4 : 4 * (p3.1 - p0.1) * |min 1 (max 0 r) - r| ≤ 4 * (p3.1 - p0.1) * eps :=
          mul_le_mul_of_nonneg_left c3 (by linarith)
        linarith

/-- A solution of the cubic equation is exact. -/
theorem roots_exact {a b c d x : ℝ} {l : List ℝ} (hD : eps ≤ |d - 3 * c + 3 * b - a|)
    (h : bezierCubicRoots (a - x) (b - x) (c - x) (d - x) = .ok l) {r : ℝ} (hr : r ∈ l) :
    validRoot r ∧ cubicBezier a b c d r = x := by
  have he := eps_pos
  have hp := poly a b c d x r
  have eD : d - 3 * c + 3 * b - a = -(a - x) + 3 * (b - x) - 3 * (c - x) + (d - x) := by ring
  rw [eD] at hD
  unfold bezierCubicRoots at h
  simp only at h
  rw [if_neg (not_lt.2 hD)] at h
  cases h
  rw [cubicRoots_iff] at hr
  obtain ⟨hv, h1⟩ := hr
  refine ⟨hv, ?_⟩
  set A := 3 * (a - x) - 6 * (b - x) + 3 * (c - x)
  set B := -3 * (a - x) + 3 * (b - x)
  set C := a - x
  set D := -(a - x) + 3 * (b - x) - 3 * (c - x) + (d - x)
  have hD0 : D ≠ 0 := by
    intro h0; rw [h0, abs_zero] at hD; linarith
  have e : D * r ^ 3 + A * r ^ 2 + B * r + C = 0 := by
    have : D * (r ^ 3 + A / D * r ^ 2 + B / D * r + C / D) = 0 := by rw [h1, mul_zero]
    rw [← this]; field_simp
  linarith

theorem valid_cons {r : ℝ} {l : List ℝ} (h : validRoot r) : valid (r :: l) = r :: valid l := by
  unfold valid
  rw [List.filter_cons_of_pos (by simpa using h)]

theorem bezier_total {p0 p1 p2 p3 g h : P} {x : ℝ} (hL : p0.1 + eps ≤ p3.1)
    (hg : outHandle p0 p1 p3 = .ok g) (hh : inHandle p0 p2 p3 = .ok h)
    (hx : p0.1 ≤ x ∧ x ≤ p3.1)
    (h3 : p3.1 - 3 * h.1 + 3 * g.1 - p0.1 = 0 ∨ eps ≤ |p3.1 - 3 * h.1 + 3 * g.1 - p0.1|)
    (h2 : p3.1 - 3 * h.1 + 3 * g.1 - p0.1 = 0 →
      h.1 - 2 * g.1 + p0.1 = 0 ∨ eps ≤ |3 * (h.1 - 2 * g.1 + p0.1)|) :
    ∃ y, bezierInterpolate p0 p1 p2 p3 x = .ok y := by
  have he := eps_pos
  obtain ⟨s, s0, s1, hs⟩ := reach (b := g.1) (c := h.1) hx
  obtain ⟨l, hl, hm⟩ := roots_complete ⟨s0, s1⟩ hs h3 h2 (by linarith)
  rw [bezier_eq (by linarith) hg hh, hl]
  cases l with
  | nil => cases hm
  | cons r l => exact ⟨_, rfl⟩

/-- At the first keyframe. -/
theorem bezier_start {p0 p1 p2 p3 : P} (hL : p0.1 + 3 * eps ≤ p3.1) :
    bezierInterpolate p0 p1 p2 p3 p0.1 = .ok p0.2 := by
  have he := eps_pos
  have hsm := eps_small
  have hlt : p0.1 < p3.1 := by linarith
  obtain ⟨g, hg, cg, g1, g2⟩ := outHandle_spec (p1 := p1) hlt
  obtain ⟨h, hh, ch, h1, h2⟩ := inHandle_spec (p2 := p2) hlt
  have h0 : cubicBezier p0.1 g.1 h.1 p3.1 0 = p0.1 := by unfold cubicBezier; ring
  have h1' : cubicBezier p0.1 g.1 h.1 p3.1 1 = p3.1 := by unfold cubicBezier; ring
  have key : ∃ r l, bezierCubicRoots (p0.1 - p0.1) (g.1 - p0.1) (h.1 - p0.1) (p3.1 - p0.1) = .ok (r :: l) ∧
      r ≤ 0 := by
    by_cases hD : |p3.1 - 3 * h.1 + 3 * g.1 - p0.1| < eps
    · have eD : p3.1 - 3 * h.1 + 3 * g.1 - p0.1 =
        -(p0.1 - p0.1) + 3 * (g.1 - p0.1) - 3 * (h.1 - p0.1) + (p3.1 - p0.1) := by ring
      unfold bezierCubicRoots
      simp only
      rw [← eD, if_pos hD]
      have hv0 : validRoot 0 := ⟨by linarith, by linarith⟩
      split
      · next hA =>
        unfold linearRoots
        have hB : eps ≤ |-3 * (p0.1 - p0.1) + 3 * (g.1 - p0.1)| := by
          refine le_trans ?_ (le_abs_self _)
          obtain ⟨q1, q2⟩ := abs_lt.1 hD
          obtain ⟨q3, q4⟩ := abs_lt.1 hA
          linarith
        rw [if_neg (not_lt.2 hB)]
        refine ⟨0, [], ?_, le_refl _⟩
        rw [sub_self, neg_zero, zero_div]
        simp [valid, hv0]
      · unfold quadraticRoots sqrt
        have e : (-3 * (p0.1 - p0.1) + 3 * (g.1 - p0.1)) * (-3 * (p0.1 - p0.1) + 3 * (g.1 - p0.1)) -
            4 * (3 * (p0.1 - p0.1) - 6 * (g.1 - p0.1) + 3 * (h.1 - p0.1)) * (p0.1 - p0.1) =
            (3 * (g.1 - p0.1)) * (3 * (g.1 - p0.1)) := by ring
        rw [e, if_neg (not_lt.2 (mul_self_nonneg _)), Real.sqrt_mul_self (by linarith)]
        have e2 : 3 * (g.1 - p0.1) - (-3 * (p0.1 - p0.1) + 3 * (g.1 - p0.1)) = 0 := by ring
        simp only [bind, Except.bind]
        rw [e2, zero_div, valid_cons hv0]
        exact ⟨0, _, rfl, le_refl _⟩
    · have hD := not_lt.1 hD
      obtain ⟨l, hl, hm⟩ := roots_complete (s := 0) ⟨le_refl _, zero_le_one⟩ h0 (.inr hD)
        (by intro h; rw [h, abs_zero] at hD; linarith) (by linarith)
      cases l with
      | nil => cases hm
      | cons r l =>
        refine ⟨r, l, hl, ?_⟩
        obtain ⟨hv, hx⟩ := roots_exact hD hl (List.mem_cons_self ..)
        by_contra hr
        have hr := not_le.1 hr
        rcases le_or_gt r 1 with h3 | h3
        · have := mono ⟨g1, g2⟩ ⟨h1, h2⟩ hlt (le_refl 0) hr h3
          linarith
        · have hsp := speed (s := 1) (t := r) ⟨g1, g2⟩ ⟨h1, h2⟩ hlt ⟨by norm_num, by norm_num⟩ (valid_bounds hv)
          rw [hx, h1', abs_of_neg (by linarith), abs_of_pos (by linarith)] at hsp
          have hr1 : r - 1 ≤ 1 / 100 := by linarith [(valid_bounds hv).2]
          nlinarith
  obtain ⟨r, l, hl, hr⟩ := key
  rw [bezier_eq hlt hg hh, hl]
  simp only [bind, Except.bind]
  rw [max_eq_left hr, min_eq_right zero_le_one]
  congr 1
  unfold cubicBezier; ring

theorem sign_pos {v : ℝ} (h : 0 ≤ v) : signNoZero v = 1 := by unfold signNoZero; rw [if_pos h]
theorem sign_neg {v : ℝ} (h : v < 0) : signNoZero v = -1 := by
  unfold signNoZero; rw [if_neg (not_le.2 h)]

/-- The value of the tangent. -/
theorem tanY_eq {p k n : P} (h1 : p.1 < k.1) (h2 : k.1 < n.1) (x : ℝ) :
    (if signNoZero ((k.2 - p.2) / (k.1 - p.1)) ≠ signNoZero ((n.2 - k.2) / (n.1 - k.1)) ∨
        signNoZero ((n.2 - p.2) / (n.1 - p.1)) ≠ signNoZero ((n.2 - k.2) / (n.1 - k.1)) ∨ n.2 = p.2
      then 0
      else min |n.2 - k.2| |k.2 - p.2| / |n.2 - p.2| * 2 * ((n.2 - p.2) / (n.1 - p.1)) * x) =
      x * steep p k n := by
  have w1 : 0 < k.1 - p.1 := by linarith
  have w2 : 0 < n.1 - k.1 := by linarith
  have w3 : 0 < n.1 - p.1 := by linarith
  rcases lt_trichotomy p.2 k.2 with a | a | a
  · have s1 : signNoZero ((k.2 - p.2) / (k.1 - p.1)) = 1 := sign_pos (div_nonneg (by linarith) w1.le)
    rcases lt_trichotomy k.2 n.2 with b | b | b
    · have s2 : signNoZero ((n.2 - k.2) / (n.1 - k.1)) = 1 := sign_pos (div_nonneg (by linarith) w2.le)
      have s3 : signNoZero ((n.2 - p.2) / (n.1 - p.1)) = 1 := sign_pos (div_nonneg (by linarith) w3.le)
      rw [s1, s2, s3, if_neg (by rintro (h | h | h); exacts [h rfl, h rfl, by linarith])]
      unfold steep
      have w4 : 0 < n.2 - p.2 := by linarith
      rw [if_pos ⟨a, b⟩, abs_of_pos (by linarith : 0 < n.2 - k.2), abs_of_pos (by linarith : 0 < k.2 - p.2),
        abs_of_pos w4, min_comm]
      field_simp
    · have : steep p k n = 0 := by
        unfold steep
        rw [if_neg (by rintro ⟨_, h⟩; linarith), if_neg (by rintro ⟨h, _⟩; linarith)]
      rw [this, b]
      have e : min |n.2 - n.2| |n.2 - p.2| = 0 := by
        rw [sub_self, abs_zero]; exact min_eq_left (abs_nonneg _)
      rw [e]; simp
    · have s2 : signNoZero ((n.2 - k.2) / (n.1 - k.1)) = -1 := sign_neg (div_neg_of_neg_of_pos (by linarith) w2)
      rw [s1, s2, if_pos (.inl (by decide))]
      unfold steep
      rw [if_neg (by rintro ⟨_, h⟩; linarith), if_neg (by rintro ⟨_, h⟩; linarith), mul_zero]
  · have : steep p k n = 0 := by
      unfold steep
      rw [if_neg (by rintro ⟨h, _⟩; linarith), if_neg (by rintro ⟨_, h⟩; linarith)]
    rw [this, a]
    have e : min |n.2 - k.2| |k.2 - k.2| = 0 := by
      rw [sub_self, abs_zero]; exact min_eq_right (abs_nonneg _)
    rw [e]; simp
  · have s1 : signNoZero ((k.2 - p.2) / (k.1 - p.1)) = -1 := sign_neg (div_neg_of_neg_of_pos (by linarith) w1)
    rcases lt_trichotomy k.2 n.2 with b | b | b
    · have s2 : signNoZero ((n.2 - k.2) / (n.1 - k.1)) = 1 := sign_pos (div_nonneg (by linarith) w2.le)
      rw [s1, s2, if_pos (.inl (by decide))]
      unfold steep
      rw [if_neg (by rintro ⟨h, _⟩; linarith), if_neg (by rintro ⟨h, _⟩; linarith), mul_zero]
    · have : steep p k n = 0 := by
        unfold steep
        rw [if_neg (by rintro ⟨_, h⟩; linarith), if_neg (by rintro ⟨h, _⟩; linarith)]
      rw [this, b]
      have e : min |n.2 - n.2| |n.2 - p.2| = 0 := by
        rw [sub_self, abs_zero]; exact min_eq_left (abs_nonneg _)
      rw [e]; simp
    · have s2 : signNoZero ((n.2 - k.2) / (n.1 - k.1)) = -1 := sign_neg (div_neg_of_neg_of_pos (by linarith) w2)
      have s3 : signNoZero ((n.2 - p.2) / (n.1 - p.1)) = -1 := sign_neg (div_neg_of_neg_of_pos (by linarith) w3)
      rw [s1, s2, s3, if_neg (by rintro (h | h | h); exacts [h rfl, h rfl, by linarith])]
      unfold steep
      have w4 : n.2 - p.2 < 0 := by linarith
      rw [if_neg (by rintro ⟨h, _⟩; linarith), if_pos ⟨b, a⟩, abs_of_neg (by linarith : n.2 - k.2 < 0),
        abs_of_neg (by linarith : k.2 - p.2 < 0), abs_of_neg w4, min_comm]
      have e1 : -(k.2 - p.2) = p.2 - k.2 := by ring
      have e2 : -(n.2 - k.2) = k.2 - n.2 := by ring
      rw [e1, e2]
      have := w4.ne
      have e3 : -(n.2 - p.2) ≠ 0 := by linarith
      field_simp

theorem tangent_out {p k n : P} (h1 : p.1 < k.1) (h2 : k.1 < n.1) :
    calculateTangent p k n false = .ok (4 / 10 * (n.1 - k.1), 4 / 10 * (n.1 - k.1) * steep p k n) := by
  have w1 : k.1 - p.1 ≠ 0 := by intro h; linarith
  have w2 : n.1 - k.1 ≠ 0 := by intro h; linarith
  have w3 : n.1 - p.1 ≠ 0 := by intro h; linarith
  unfold calculateTangent div
  simp only [if_neg w1, if_neg w2, if_neg w3, bind, Except.bind, Bool.false_eq_true, if_false]
  rw [tanY_eq h1 h2]

theorem tangent_in {p k n : P} (h1 : p.1 < k.1) (h2 : k.1 < n.1) :
    calculateTangent p k n true =
      .ok (4 / 10 * (k.1 - p.1) * -1, 4 / 10 * (k.1 - p.1) * steep p k n * -1) := by
  have w1 : k.1 - p.1 ≠ 0 := by intro h; linarith
  have w2 : n.1 - k.1 ≠ 0 := by intro h; linarith
  have w3 : n.1 - p.1 ≠ 0 := by intro h; linarith
  unfold calculateTangent div
  simp only [if_neg w1, if_neg w2, if_neg w3, bind, Except.bind, if_true]
  rw [tanY_eq h1 h2]

/-- The curve of a spline is exact. -/
theorem spline_exact {p0 p3 : P} {u v x : ℝ} (hL : p0.1 + 3 * eps ≤ p3.1) (hx : p0.1 ≤ x ∧ x ≤ p3.1) :
    ∃ s, Fraction s ∧
      bezierInterpolate p0 (p0.1 + 4 / 10 * (p3.1 - p0.1), u) (p3.1 - 4 / 10 * (p3.1 - p0.1), v) p3 x =
        .ok (curve p0 (p0.1 + 4 / 10 * (p3.1 - p0.1), u) (p3.1 - 4 / 10 * (p3.1 - p0.1), v) p3 s).2 ∧
      (curve p0 (p0.1 + 4 / 10 * (p3.1 - p0.1), u) (p3.1 - 4 / 10 * (p3.1 - p0.1), v) p3 s).1 = x := by
  have he := eps_pos
  have hlt : p0.1 < p3.1 := by linarith
  set b := p0.1 + 4 / 10 * (p3.1 - p0.1) with hb
  set c := p3.1 - 4 / 10 * (p3.1 - p0.1) with hc
  have hg : outHandle p0 (b, u) p3 = .ok (b, u) := by
    unfold outHandle
    rw [if_neg (by simp only [gt_iff_lt, not_lt]; linarith), if_neg (by simp only [not_lt]; linarith)]
  have hh : inHandle p0 (c, v) p3 = .ok (c, v) := by
    unfold inHandle
    rw [if_neg (by simp only [not_lt]; linarith), if_neg (by simp only [gt_iff_lt, not_lt]; linarith)]
  have hD : eps ≤ |p3.1 - 3 * c + 3 * b - p0.1| := by
    have : p3.1 - 3 * c + 3 * b - p0.1 = 4 / 10 * (p3.1 - p0.1) := by rw [hb, hc]; ring
    rw [this]
    exact le_trans (by linarith) (le_abs_self _)
  obtain ⟨s, s0, s1, hs⟩ := reach (b := b) (c := c) hx
  obtain ⟨l, hl, hm⟩ := roots_complete ⟨s0, s1⟩ hs (.inr hD)
    (by intro h; rw [h, abs_zero] at hD; linarith) (by linarith)
  refine ⟨s, ⟨s0, s1⟩, ?_, by rw [curve_eq]; exact hs⟩
  rw [bezier_eq hlt hg hh]
  simp only
  rw [hl]
  cases l with
  | nil => cases hm
  | cons r l =>
    obtain ⟨hv, hr⟩ := roots_exact hD hl (List.mem_cons_self ..)
    have hrs : r = s := by
      have e : cubicBezier p0.1 b c p3.1 r - cubicBezier p0.1 b c p3.1 s =
          (r - s) * ((p3.1 - p0.1) * (12 / 10 - 6 / 10 * (s + r) + 4 / 10 * (s ^ 2 + s * r + r ^ 2))) := by
        rw [hb, hc]; unfold cubicBezier; ring
      rw [hr, hs, sub_self] at e
      rcases mul_eq_zero.1 e.symm with h | h
      · linarith
      · exfalso
        have : 0 < 12 / 10 - 6 / 10 * (s + r) + 4 / 10 * (s ^ 2 + s * r + r ^ 2) := by
          nlinarith [sq_nonneg (s + r - 1), sq_nonneg (s - r)]
        have := mul_pos (show 0 < p3.1 - p0.1 by linarith) this
        linarith
    simp only [bind, Except.bind]
    rw [hrs, max_eq_right s0, min_eq_right s1, curve_eq]

theorem steep_flat {p k n : P} (h : k.2 = p.2 ∨ k.2 = n.2) : steep p k n = 0 := by
  unfold steep
  rcases h with h | h
  · rw [if_neg (by rintro ⟨h, _⟩; linarith), if_neg (by rintro ⟨_, h⟩; linarith)]
  · rw [if_neg (by rintro ⟨_, h⟩; linarith), if_neg (by rintro ⟨h, _⟩; linarith)]

theorem before_eq {l : List Key} (hs : InOrder l) {i : Nat} {a b : Key} (ha : l[i]? = some a)
    (hb : l[i + 1]? = some b) :
    ∃ p : P, before l i a b = .ok p ∧ p.1 < a.time ∧ steep p a.at b.at = steepAt (l.map Key.at) i := by
  have hlt := hs.lt (by omega) ha hb
  unfold before
  cases i with
  | zero =>
    rw [if_neg (by omega)]
    exact ⟨_, rfl, by simp only; linarith, steep_flat (.inl rfl)⟩
  | succ i =>
    have hl := (List.getElem?_eq_some_iff.1 ha).1
    have hp : l[i]? = some l[i] := List.getElem?_eq_getElem (by omega)
    rw [if_pos (by omega), Nat.add_sub_cancel, item_some hp]
    refine ⟨_, rfl, hs.lt (by omega) hp ha, ?_⟩
    unfold steepAt
    have hb' : l[i + 2]? = some b := hb
    simp only [List.getElem?_map, hp, ha, hb', Option.map_some]

theorem after_eq {l : List Key} (hs : InOrder l) {i : Nat} {a b : Key} (ha : l[i]? = some a)
    (hb : l[i + 1]? = some b) :
    ∃ p : P, after l i a b = .ok p ∧ b.time < p.1 ∧ steep a.at b.at p = steepAt (l.map Key.at) (i + 1) := by
  have hlt := hs.lt (by omega) ha hb
  unfold after
  split
  · next h =>
    have hp : l[i + 2]? = some l[i + 2] := List.getElem?_eq_getElem h
    rw [item_some hp]
    refine ⟨_, rfl, hs.lt (by omega) hb hp, ?_⟩
    unfold steepAt
    simp only [List.getElem?_map, hp, ha, hb, Option.map_some]
  · next h =>
    refine ⟨_, rfl, by simp only; linarith, ?_⟩
    have hp : l[i + 2]? = none := by rw [List.getElem?_eq_none_iff]; omega
    rw [steep_flat (p := a.at) (k := b.at) (n := (b.time + (b.time - a.time) * (5 / 10), b.value)) (.inr rfl)]
    unfold steepAt
    simp only [List.getElem?_map, hp, ha, hb, Option.map_some, Option.map_none]

/-- The handles of a spline do not leave the interval of the values. -/
theorem steep_out {p k n : P} (h1 : p.1 < k.1) (h2 : k.1 < n.1) :
    Between (k.2 + 4 / 10 * (n.1 - k.1) * steep p k n) k.2 n.2 := by
  have w : 0 < n.1 - p.1 := by linarith
  have frac : 0 ≤ (n.1 - k.1) / (n.1 - p.1) ∧ (n.1 - k.1) / (n.1 - p.1) ≤ 1 :=
    ⟨div_nonneg (by linarith) w.le, (div_le_one w).2 (by linarith)⟩
  unfold steep
  split
  · next h =>
    have e : 4 / 10 * (n.1 - k.1) * (2 * min (k.2 - p.2) (n.2 - k.2) / (n.1 - p.1)) =
        8 / 10 * min (k.2 - p.2) (n.2 - k.2) * ((n.1 - k.1) / (n.1 - p.1)) := by field_simp; ring
    rw [e]
    have m0 : 0 < min (k.2 - p.2) (n.2 - k.2) := lt_min (by linarith) (by linarith)
    have m1 : min (k.2 - p.2) (n.2 - k.2) ≤ n.2 - k.2 := min_le_right _ _
    set m := min (k.2 - p.2) (n.2 - k.2)
    set f := (n.1 - k.1) / (n.1 - p.1)
    unfold Between
    rw [min_eq_left h.2.le, max_eq_right h.2.le]
    constructor <;> nlinarith
  · split
    · next h =>
      have e : 4 / 10 * (n.1 - k.1) * -(2 * min (p.2 - k.2) (k.2 - n.2) / (n.1 - p.1)) =
          -(8 / 10 * min (p.2 - k.2) (k.2 - n.2) * ((n.1 - k.1) / (n.1 - p.1))) := by field_simp; ring
      rw [e]
      have m0 : 0 < min (p.2 - k.2) (k.2 - n.2) := lt_min (by linarith) (by linarith)
      have m1 : min (p.2 - k.2) (k.2 - n.2) ≤ k.2 - n.2 := min_le_right _ _
      set m := min (p.2 - k.2) (k.2 - n.2)
      set f := (n.1 - k.1) / (n.1 - p.1)
      unfold Between
      rw [min_eq_right h.1.le, max_eq_left h.1.le]
      constructor <;> nlinarith
    · rw [mul_zero, add_zero]
      exact ⟨min_le_left _ _, le_max_left _ _⟩

theorem steep_in {p k n : P} (h1 : p.1 < k.1) (h2 : k.1 < n.1) :
    Between (k.2 - 4 / 10 * (k.1 - p.1) * steep p k n) p.2 k.2 := by
  have w : 0 < n.1 - p.1 := by linarith
  have frac : 0 ≤ (k.1 - p.1) / (n.1 - p.1) ∧ (k.1 - p.1) / (n.1 - p.1) ≤ 1 :=
    ⟨div_nonneg (by linarith) w.le, (div_le_one w).2 (by linarith)⟩
  unfold steep
  split
  · next h =>
    have e : 4 / 10 * (k.1 - p.1) * (2 * min (k.2 - p.2) (n.2 - k.2) / (n.1 - p.1)) =
        8 / 10 * min (k.2 - p.2) (n.2 - k.2) * ((k.1 - p.1) / (n.1 - p.1)) := by field_simp; ring
    rw [e]
    have m0 : 0 < min (k.2 - p.2) (n.2 - k.2) := lt_min (by linarith) (by linarith)
    have m1 : min (k.2 - p.2) (n.2 - k.2) ≤ k.2 - p.2 := min_le_left _ _
    set m := min (k.2 - p.2) (n.2 - k.2)
    set f := (k.1 - p.1) / (n.1 - p.1)
    unfold Between
    rw [min_eq_left h.1.le, max_eq_right h.1.le]
    constructor <;> nlinarith
  · split
    · next h =>
      have e : 4 / 10 * (k.1 - p.1) * -(2 * min (p.2 - k.2) (k.2 - n.2) / (n.1 - p.1)) =
          -(8 / 10 * min (p.2 - k.2) (k.2 - n.2) * ((k.1 - p.1) / (n.1 - p.1))) := by field_simp; ring
      rw [e]
      have m0 : 0 < min (p.2 - k.2) (k.2 - n.2) := lt_min (by linarith) (by linarith)
      have m1 : min (p.2 - k.2) (k.2 - n.2) ≤ p.2 - k.2 := min_le_left _ _
      set m := min (p.2 - k.2) (k.2 - n.2)
      set f := (k.1 - p.1) / (n.1 - p.1)
      unfold Between
      rw [min_eq_right h.2.le, max_eq_left h.2.le]
      constructor <;> nlinarith
    · rw [mul_zero, sub_zero]
      exact ⟨min_le_right _ _, le_max_right _ _⟩

/-- The handles of a spline between two keyframes. -/
noncomputable def splineOut (l : List Key) (i : Nat) (a b : Key) : P :=
  (a.time + 4 / 10 * (b.time - a.time), a.value + 4 / 10 * (b.time - a.time) * steepAt (l.map Key.at) i)

@[inherit_doc splineOut]
noncomputable def splineIn (l : List Key) (i : Nat) (a b : Key) : P :=
  (b.time - 4 / 10 * (b.time - a.time), b.value - 4 / 10 * (b.time - a.time) * steepAt (l.map Key.at) (i + 1))

theorem spline_handles {l : List Key} (hs : InOrder l) {i : Nat} {a b : Key} (ha : l[i]? = some a)
    (hb : l[i + 1]? = some b) (t : ℝ) :
    between .cubic l i a b t = bezierInterpolate a.at (splineOut l i a b) (splineIn l i a b) b.at t ∧
    Between (splineOut l i a b).2 a.value b.value ∧ Between (splineIn l i a b).2 a.value b.value := by
  have hlt : a.at.1 < b.at.1 := hs.lt (by omega) ha hb
  obtain ⟨p, hp, p1, p2⟩ := before_eq hs ha hb
  obtain ⟨n, hn, n1, n2⟩ := after_eq hs ha hb
  have p1' : p.1 < a.at.1 := p1
  have n1' : b.at.1 < n.1 := n1
  refine ⟨?_, ?_, ?_⟩
  · unfold between
    simp only
    rw [hp, hn]
    simp only [bind, Except.bind]
    unfold cubicInterpolate
    rw [tangent_out p1' hlt, tangent_in hlt n1']
    simp only [bind, Except.bind]
    rw [p2, n2]
    unfold splineOut splineIn Key.at
    simp only [mul_neg, mul_one, sub_eq_add_neg]
  · have := steep_out p1' hlt
    rw [p2] at this
    exact this
  · have := steep_in hlt n1'
    rw [n2] at this
    exact this

/-- **C63 (spline)**: with cubic interpolation there is a value at every time between the keyframes.
It is on the curve whose handles are at 2/5 of the interval and as steep as `steepAt` says on both sides
of a keyframe, so that the curves meet smoothly, at exactly that time. -/
theorem C63_cubic {l : List Key} (hs : InOrder l) {i : Nat} {a b : Key} (ha : l[i]? = some a)
    (hb : l[i + 1]? = some b) {t : ℝ} (h1 : a.time ≤ t) (h2 : t < b.time)
    (hgap : a.time + 3 / 10 ^ 10 ≤ b.time) :
    ∃ y s, valueAt .cubic l t = .ok y ∧ Fraction s ∧
      curve a.at (a.time + 2 / 5 * (b.time - a.time), a.value + 2 / 5 * (b.time - a.time) * steepAt (l.map Key.at) i)
        (b.time - 2 / 5 * (b.time - a.time), b.value - 2 / 5 * (b.time - a.time) * steepAt (l.map Key.at) (i + 1))
        b.at s = (t, y) := by
  obtain ⟨e, _, _⟩ := spline_handles hs ha hb t
  have hg : a.at.1 + 3 * eps ≤ b.at.1 := by
    have : 3 * eps = 3 / 10 ^ 10 := by unfold eps; ring
    rw [this]; exact hgap
  obtain ⟨s, q1, q2, q3⟩ := spline_exact (u := (splineOut l i a b).2) (v := (splineIn l i a b).2) hg
    (x := t) ⟨h1, h2.le⟩
  refine ⟨(curve a.at (splineOut l i a b) (splineIn l i a b) b.at s).2, s, ?_, q1, ?_⟩
  · rw [between_eq hs ha hb h1 h2, if_neg (by decide), e]
    exact q2
  · have e25 : (2 / 5 : ℝ) = 4 / 10 := by norm_num
    rw [e25]
    exact Prod.ext q3 rfl

/-- **C63 (no overshoot)**: with cubic interpolation every value is between those of the two keyframes. -/
theorem C63_cubic_between {l : List Key} (hs : InOrder l) {i : Nat} {a b : Key} (ha : l[i]? = some a)
    (hb : l[i + 1]? = some b) {t y : ℝ} (h1 : a.time ≤ t) (h2 : t < b.time)
    (hy : valueAt .cubic l t = .ok y) : Between y a.value b.value := by
  obtain ⟨e, q1, q2⟩ := spline_handles hs ha hb t
  have hlt : a.at.1 < b.at.1 := hs.lt (by omega) ha hb
  have hlt' : a.time < b.time := hlt
  rw [between_eq hs ha hb h1 h2, if_neg (by decide), e] at hy
  obtain ⟨g, h, s, cg, ch, hf, hv, _⟩ := bezier_ok hlt hy
  have eg : g = splineOut l i a b := cg.inside (by
    unfold Between splineOut Key.at
    simp only
    rw [min_eq_left hlt'.le, max_eq_right hlt'.le]
    constructor <;> linarith)
  have eh : h = splineIn l i a b := ch.inside (by
    unfold Between splineIn Key.at
    simp only
    rw [min_eq_right hlt'.le, max_eq_left hlt'.le]
    constructor <;> linarith)
  rw [curve_eq] at hv
  simp only at hv
  rw [← hv, eg, eh]
  exact hull hf ⟨min_le_left _ _, le_max_left _ _⟩ q1 q2 ⟨min_le_right _ _, le_max_right _ _⟩

/-- **C63 (Bezier)**: a value is on the curve of the keyframes and their handles, at that time up to
`(4 · gap + 3) / 10^10`. -/
theorem C63_bezier {l : List Key} (hs : InOrder l) {i : Nat} {a b : Key} (ha : l[i]? = some a)
    (hb : l[i + 1]? = some b) {t y : ℝ} (h1 : a.time ≤ t) (h2 : t < b.time)
    (hy : valueAt .bezier l t = .ok y) :
    ∃ g h s, Cut a.at b.at (a.time + a.tout.1, a.value + a.tout.2) g ∧
      Cut b.at a.at (b.time + b.tin.1, b.value + b.tin.2) h ∧ Fraction s ∧
      (curve a.at g h b.at s).2 = y ∧
      |(curve a.at g h b.at s).1 - t| ≤ (4 * (b.time - a.time) + 3) / 10 ^ 10 := by
  have hlt : a.at.1 < b.at.1 := hs.lt (by omega) ha hb
  rw [between_eq hs ha hb h1 h2, if_neg (by decide)] at hy
  obtain ⟨g, h, s, q1, q2, q3, q4, q5⟩ := bezier_ok hlt hy
  refine ⟨g, h, s, q1, q2, q3, q4, q5.trans (le_of_eq ?_)⟩
  unfold eps Key.at
  simp only
  ring

/-- The handle in use. -/
theorem cut_inside {a b h g : P} (hab : a.1 ≠ b.1) (hc : Cut a b h g) : Between g.1 a.1 b.1 := by
  by_cases h1 : Between h.1 a.1 b.1
  · rw [hc.inside h1]; exact h1
  · by_cases h2 : 0 < (h.1 - b.1) * (b.1 - a.1)
    · rw [(hc.beyond h2).1]; exact ⟨min_le_right _ _, le_max_right _ _⟩
    · have h3 : (h.1 - a.1) * (b.1 - a.1) < 0 := by
        rcases lt_or_gt_of_ne hab with hab | hab
        · unfold Between at h1
          rw [min_eq_left hab.le, max_eq_right hab.le] at h1
          by_contra h3
          exact h1 ⟨by nlinarith, by nlinarith⟩
        · unfold Between at h1
          rw [min_eq_right hab.le, max_eq_left hab.le] at h1
          by_contra h3
          exact h1 ⟨by nlinarith, by nlinarith⟩
      rw [hc.behind h3]; exact ⟨min_le_left _ _, le_max_left _ _⟩

/-- **C63 (one value)**: the time increases along such a curve, so that there is one value at a time. -/
theorem C63_single {a b p q g h : P} (hab : a.1 < b.1) (hg : Cut a b p g) (hh : Cut b a q h) {s t : ℝ}
    (hs : Fraction s) (ht : Fraction t) (hst : s < t) : (curve a g h b s).1 < (curve a g h b t).1 := by
  have g1 := cut_inside hab.ne hg
  have h1 := cut_inside hab.ne' hh
  unfold Between at g1 h1
  rw [min_eq_left hab.le, max_eq_right hab.le] at g1
  rw [min_eq_right hab.le, max_eq_left hab.le] at h1
  rw [curve_eq, curve_eq]
  exact mono g1 h1 hab hs.1 hst ht.2

/-- **C63 (keyframes)**: at the time of a keyframe the value is that of the keyframe, if the next
keyframe is not closer than `3 / 10^10`. -/
theorem C63_keyframe_partial {l : List Key} (hs : InOrder l) {i : Nat} {a : Key} (ha : l[i]? = some a)
    (hgap : ∀ b, l[i + 1]? = some b → a.time + 3 / 10 ^ 10 ≤ b.time) {k : Interp} (hk : k ≠ .other) :
    valueAt k l a.time = .ok a.value := by
  have hl := (List.getElem?_eq_some_iff.1 ha).1
  cases hb : l[i + 1]? with
  | none =>
    rw [List.getElem?_eq_none_iff] at hb
    refine C63_after hs ?_ (le_refl _) k
    rw [List.getLast?_eq_getElem?, ← ha]
    congr 1
    omega
  | some b =>
    have hlt := hs.lt (by omega) ha hb
    have hg : a.at.1 + 3 * eps ≤ b.at.1 := by
      have : 3 * eps = 3 / 10 ^ 10 := by unfold eps; ring
      rw [this]; exact hgap b hb
    rw [between_eq hs ha hb (le_refl _) hlt]
    cases k with
    | constant => rfl
    | linear =>
      rw [if_neg (by decide)]
      unfold between div
      simp only
      rw [if_neg (by intro h; linarith), sub_self, zero_div]
      simp only [bind, Except.bind]
      unfold lerp
      rw [mul_zero, add_zero]
    | bezier =>
      rw [if_neg (by decide)]
      exact bezier_start hg
    | cubic =>
      rw [if_neg (by decide), (spline_handles hs ha hb a.time).1]
      exact bezier_start hg
    | other => exact absurd rfl hk

/-- **C63 (Bezier answers)**: there is a value, if the handles do not make the equation almost one of a
lower degree. -/
theorem C63_bezier_answers_partial {l : List Key} (hs : InOrder l) {i : Nat} {a b : Key}
    (ha : l[i]? = some a) (hb : l[i + 1]? = some b) {t : ℝ} (h1 : a.time ≤ t) (h2 : t < b.time)
    (hgap : a.time + 1 / 10 ^ 10 ≤ b.time)
    (hc : ∀ g h, Cut a.at b.at (a.time + a.tout.1, a.value + a.tout.2) g →
      Cut b.at a.at (b.time + b.tin.1, b.value + b.tin.2) h →
      (b.time - 3 * h.1 + 3 * g.1 - a.time = 0 ∧
        (h.1 - 2 * g.1 + a.time = 0 ∨ 1 / 10 ^ 10 ≤ |3 * (h.1 - 2 * g.1 + a.time)|)) ∨
      1 / 10 ^ 10 ≤ |b.time - 3 * h.1 + 3 * g.1 - a.time|) :
    ∃ y, valueAt .bezier l t = .ok y := by
  have hlt : a.at.1 < b.at.1 := hs.lt (by omega) ha hb
  obtain ⟨g, hg, cg, _, _⟩ := outHandle_spec (p1 := (a.time + a.tout.1, a.value + a.tout.2)) hlt
  obtain ⟨h, hh, ch, _, _⟩ := inHandle_spec (p2 := (b.time + b.tin.1, b.value + b.tin.2)) hlt
  rw [between_eq hs ha hb h1 h2, if_neg (by decide)]
  refine bezier_total hgap hg hh ⟨h1, h2.le⟩ ?_ ?_
  · rcases hc g h cg ch with q | q
    · exact .inl q.1
    · exact .inr q
  · intro h0
    rcases hc g h cg ch with q | q
    · exact q.2
    · have h0' : b.time - 3 * h.1 + 3 * g.1 - a.time = 0 := h0
      rw [h0', abs_zero] at q
      norm_num at q

theorem cut_value {a b h g : P} {lo hi : ℝ} (hab : a.1 ≠ b.1) (hc : Cut a b h g) (ha : lo ≤ a.2 ∧ a.2 ≤ hi)
    (hh : lo ≤ h.2 ∧ h.2 ≤ hi) : lo ≤ g.2 ∧ g.2 ≤ hi := by
  by_cases h1 : Between h.1 a.1 b.1
  · rw [hc.inside h1]; exact hh
  · by_cases h2 : 0 < (h.1 - b.1) * (b.1 - a.1)
    · obtain ⟨_, s, ⟨s0, s1⟩, e⟩ := hc.beyond h2
      rw [e]
      unfold mix
      simp only
      constructor <;> nlinarith
    · have h3 : (h.1 - a.1) * (b.1 - a.1) < 0 := by
        rcases lt_or_gt_of_ne hab with hab | hab
        · unfold Between at h1
          rw [min_eq_left hab.le, max_eq_right hab.le] at h1
          by_contra h3
          exact h1 ⟨by nlinarith, by nlinarith⟩
        · unfold Between at h1
          rw [min_eq_right hab.le, max_eq_left hab.le] at h1
          by_contra h3
          exact h1 ⟨by nlinarith, by nlinarith⟩
      rw [hc.behind h3]; exact hh

/-- **C63 (Bezier range)**: a value does not leave the range of the values of the two keyframes and the
two handles. -/
theorem C63_bezier_between {l : List Key} (hs : InOrder l) {i : Nat} {a b : Key} (ha : l[i]? = some a)
    (hb : l[i + 1]? = some b) {t y lo hi : ℝ} (h1 : a.time ≤ t) (h2 : t < b.time)
    (hy : valueAt .bezier l t = .ok y)
    (hr : ∀ v ∈ [a.value, a.value + a.tout.2, b.value + b.tin.2, b.value], lo ≤ v ∧ v ≤ hi) :
    lo ≤ y ∧ y ≤ hi := by
  have hlt : a.at.1 < b.at.1 := hs.lt (by omega) ha hb
  obtain ⟨g, h, s, q1, q2, q3, q4, _⟩ := C63_bezier hs ha hb h1 h2 hy
  have ra := hr a.value (by simp)
  have rb := hr b.value (by simp)
  rw [curve_eq] at q4
  simp only at q4
  rw [← q4]
  exact hull q3 ra (cut_value hlt.ne q1 ra (hr _ (by simp))) (cut_value hlt.ne' q2 rb (hr _ (by simp))) rb

/-- **C63 counterexample (order)**: keyframes at 10 and then 0, which stay in that order (C39), have no
value at 10 with Bezier interpolation: `NameError`. -/
theorem C63_order_counterexample : valueAt .bezier [⟨10, 1, (0, 0), (0, 0)⟩, ⟨0, 2, (0, 0), (0, 0)⟩] 10 =
    .error .unboundLocal := by
  have e : nearestIndex ltReal [(10 : ℝ), 0] 10 = .ok 0 := by
    unfold nearestIndex
    rw [nearestLoop]
    simp [ltReal]
  unfold valueAt
  simp only [List.map_cons, List.map_nil]
  rw [e]
  simp [bind, Except.bind, item, between, bezierInterpolate, Key.at]

/-- **C63 counterexample (degree)**: keyframes at 0 and 100000/100001, a handle of 166667/250003.  There
is a time in between with no value: `ValueError` of the square root. -/
theorem C63_degree_counterexample :
    let l : List Key := [⟨0, 0, (0, 0), (166667 / 250003, 0)⟩, ⟨100000 / 100001, 1, (0, 0), (0, 0)⟩]
    InOrder l ∧ valueAt .bezier l (100000 / 100001 - 1 / (2 * 100001 * 250003)) = .error .valueError := by
  intro l
  have hs : InOrder l := by
    simp only [l, InOrder, List.pairwise_cons, List.mem_cons, List.not_mem_nil, or_false, forall_eq]
    norm_num
  refine ⟨hs, ?_⟩
  rw [between_eq hs (i := 0) (a := ⟨0, 0, (0, 0), (166667 / 250003, 0)⟩) (b := ⟨100000 / 100001, 1, (0, 0), (0, 0)⟩)
    rfl rfl (by norm_num) (by norm_num), if_neg (by decide)]
  unfold between
  simp only
  have hg : outHandle (0, 0) (0 + 166667 / 250003, (0 : ℝ) + 0) ((100000 / 100001 : ℝ), (1 : ℝ)) =
      .ok (166667 / 250003, 0) := by
    unfold outHandle
    rw [if_neg (by norm_num), if_neg (by norm_num)]
    norm_num
  have hh : inHandle (0, 0) ((100000 / 100001 : ℝ) + 0, (1 : ℝ) + 0) ((100000 / 100001 : ℝ), (1 : ℝ)) =
      .ok (100000 / 100001, 1) := by
    unfold inHandle
    rw [if_neg (by norm_num), if_neg (by norm_num)]
    norm_num
  unfold Key.at
  simp only
  rw [bezier_eq (by norm_num) hg hh]
  have hr : ∀ x : ℝ, x = 100000 / 100001 - 1 / (2 * 100001 * 250003) →
      bezierCubicRoots (0 - x) (166667 / 250003 - x) (100000 / 100001 - x) (100000 / 100001 - x) =
      .error .valueError := by
    intro x hx
    unfold bezierCubicRoots eps
    simp only
    rw [if_pos (by rw [hx, abs_of_pos (by norm_num)]; norm_num),
      if_neg (by rw [hx, abs_of_neg (by norm_num)]; norm_num)]
    unfold quadraticRoots sqrt
    rw [if_pos (by rw [hx]; norm_num)]
    rfl
  rw [hr _ rfl]
  rfl

/-- Three keyframes with handles. -/
noncomputable def sample : List Key :=
  [⟨0, 0, (0, 0), (1 / 3, 1)⟩, ⟨1, 10, (-1 / 3, 0), (5, 2)⟩, ⟨3, 14, (-1, 0), (0, 0)⟩]

/-- The hypotheses are met: keyframes in order and apart, times between them, Bezier values. -/
theorem C63_example : InOrder sample ∧
    (∃ y, valueAt .bezier sample (1 / 2) = .ok y) ∧ (∃ y, valueAt .cubic sample 2 = .ok y) ∧
    valueAt .linear sample 2 = .ok 12 ∧ steepAt (sample.map Key.at) 1 = 8 / 3 := by
  have hs : InOrder sample := by
    simp only [sample, InOrder, List.pairwise_cons, List.mem_cons, List.not_mem_nil, or_false,
      forall_eq, forall_eq_or_imp]
    norm_num
  refine ⟨hs, ?_, ?_, ?_, ?_⟩
  · refine C63_bezier_answers_partial hs (i := 0) rfl rfl (by norm_num) (by norm_num) (by norm_num) ?_
    intro g h hg hh
    have e1 := hg.inside (by unfold Between Key.at; norm_num)
    have e2 := hh.inside (by unfold Between Key.at; norm_num)
    left
    rw [e1, e2]
    norm_num
  · obtain ⟨y, _, h, _⟩ := C63_cubic hs (i := 1) rfl rfl (t := 2) (by norm_num) (by norm_num) (by norm_num)
    exact ⟨y, h⟩
  · obtain ⟨y, s, h, _, e⟩ := C63_linear hs (i := 1) rfl rfl (t := 2) (by norm_num) (by norm_num)
    rw [h]
    have e1 := congrArg Prod.fst e
    have e2 := congrArg Prod.snd e
    simp only [mix, Key.at] at e1 e2
    congr 1
    linarith
  · simp only [sample, List.map_cons, List.map_nil, steepAt, Key.at]
    norm_num [steep]

end Verif.Interpolation
