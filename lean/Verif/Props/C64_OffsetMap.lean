import Verif.Model.OffsetMap
import Verif.Spec.OffsetMap
import Verif.Props.C63_Interpolation
/-!
# C64: offset maps of speed maps
-/
namespace Verif.Interpolation

open Curves

variable {f : ℝ → Res ℝ} {g : ℝ → ℝ}

theorem trap_eq (hf : ∀ t, f t = .ok (g t)) (x : ℝ) : trapezoidal f (x - 5 / 10) x = .ok (half g x) := by
  unfold trapezoidal half
  have e : ∀ y : ℝ, (y - (y - 5 / 10)) / 5 = 1 / 10 := by intro y; ring
  simp only [hf, trapLoop, bind, Except.bind, e]
  congr 1
  push_cast
  have e0 : x - 5 / 10 - 1 / 10 = x - 6 / 10 := by ring
  have e1 : x - 5 / 10 + 0 * (1 / 10) = x - 5 / 10 := by ring
  have e2 : x - 5 / 10 + 1 * (1 / 10) = x - 4 / 10 := by ring
  have e3 : x - 5 / 10 + 2 * (1 / 10) = x - 3 / 10 := by ring
  have e4 : x - 5 / 10 + 3 * (1 / 10) = x - 2 / 10 := by ring
  have e5 : x - 5 / 10 + 4 * (1 / 10) = x - 1 / 10 := by ring
  rw [e0, e1, e2, e3, e4, e5]
  ring

/-- The distance of `k` half frames. -/
noncomputable def dist (g : ℝ → ℝ) (x : ℝ) : Nat → ℝ
  | 0 => 0
  | k + 1 => dist g x k + half g (x + k / 2)

/-- What is yielded for `k` half frames. -/
noncomputable def run (g : ℝ → ℝ) (x pos : ℝ) (k : Nat) : List (ℝ × ℝ) :=
  (List.range k).map fun (j : Nat) => (x + (j : ℝ) / 2, pos + dist g x (j + 1))

theorem dist_front (g : ℝ → ℝ) (x : ℝ) (k : Nat) :
    dist g x (k + 2) = half g x + half g (x + 5 / 10) + dist g (x + 1) k := by
  induction k with
  | zero => simp only [dist]; norm_num
  | succ k ih =>
    rw [show k + 1 + 2 = (k + 2) + 1 from rfl, dist, ih]
    simp only [dist]
    have : x + ((k + 2 : ℕ) : ℝ) / 2 = x + 1 + (k : ℝ) / 2 := by push_cast; ring
    rw [this]; ring

theorem run_front (g : ℝ → ℝ) (x pos : ℝ) (k : Nat) :
    run g x pos (k + 2) = (x, pos + half g x) :: (x + 5 / 10, pos + half g x + half g (x + 5 / 10)) ::
      run g (x + 1) (pos + half g x + half g (x + 5 / 10)) k := by
  unfold run
  rw [List.range_succ_eq_map, List.range_succ_eq_map]
  simp only [List.map_cons, List.map_map]
  refine congr (congrArg _ ?_) (congr (congrArg _ ?_) ?_)
  · simp [dist]
  · refine Prod.ext ?_ ?_
    · simp only; norm_num
    · simp [dist]; ring_nf
  · refine List.map_congr_left ?_
    intro j _
    simp only [Function.comp]
    refine Prod.ext ?_ ?_
    · simp only; push_cast; ring
    · simp only
      rw [show j.succ.succ + 1 = (j + 1) + 2 from rfl, dist_front]; ring

theorem run_back (g : ℝ → ℝ) (x pos : ℝ) (k : Nat) :
    run g x pos (k + 1) = run g x pos k ++ [(x + (k : ℝ) / 2, pos + dist g x (k + 1))] := by
  unfold run
  rw [List.range_succ, List.map_append]
  rfl

theorem loop_eq (hf : ∀ t, f t = .ok (g t)) : ∀ (n : Nat) (i : Int) (t : Option ℝ) (pos : ℝ),
    integrateLoop f n i t pos = .ok (run g i pos (2 * n),
      if n = 0 then t else some ((i : ℝ) + n - 5 / 10), pos + dist g i (2 * n))
  | 0, i, t, pos => by
    simp [integrateLoop, run, dist]
  | n + 1, i, t, pos => by
    unfold integrateLoop
    simp only
    rw [trap_eq hf, trap_eq hf]
    simp only [bind, Except.bind]
    rw [loop_eq hf n (i + 1)]
    simp only
    rw [show 2 * (n + 1) = 2 * n + 2 from rfl, run_front, dist_front, if_neg (Nat.succ_ne_zero n)]
    push_cast
    congr 2
    congr 1
    · split
      · next h => subst h; norm_num; ring
      · congr 1; ring
    · ring

theorem iter_eq (hf : ∀ t, f t = .ok (g t)) {s e : Int} (h : s + 1 < e) :
    integrateIter f s e = .ok (run g s 0 (2 * (e - 1 - s) + 1).toNat) := by
  unfold integrateIter
  obtain ⟨n, hn⟩ : ∃ n : Nat, e - 1 - s = n + 1 := ⟨(e - 1 - s - 1).toNat, by omega⟩
  rw [hn, loop_eq hf]
  simp only [bind, Except.bind]
  rw [show ((n : Int) + 1).toNat = n + 1 by omega, if_neg (by omega)]
  unfold integrateLast
  simp only
  rw [trap_eq hf, show (2 * ((n : Int) + 1) + 1).toNat = 2 * (n + 1) + 1 by omega, run_back]
  simp only [bind, Except.bind]
  congr 4
  · push_cast; ring
  · rw [add_assoc, dist]
    congr 3
    push_cast; ring

theorem collect_skip (start stop : Int) (off : ℝ) : ∀ (l r : List (ℝ × ℝ)),
    (∀ p ∈ l, p.1 < start) → start ≤ stop → collect start stop off (l ++ r) = collect start stop off r
  | [], _, _, _ => rfl
  | (t, v) :: l, r, h, hs => by
    have h1 := h (t, v) (by simp)
    simp only at h1
    have h2 : (start : ℝ) ≤ stop := by exact_mod_cast hs
    rw [List.cons_append, collect, if_neg (by simp only [gt_iff_lt, not_lt]; linarith),
      if_neg (by simp only [ge_iff_le, not_le]; exact h1)]
    exact collect_skip start stop off l r (fun p hp => h p (by simp [hp])) hs

theorem collect_all (start stop : Int) (off : ℝ) : ∀ (l : List (ℝ × ℝ)),
    (∀ p ∈ l, (start : ℝ) ≤ p.1 ∧ p.1 ≤ stop) → collect start stop off l = l.map fun p => (p.1, p.2 - off)
  | [], _ => rfl
  | (t, v) :: l, h => by
    have h1 := h (t, v) (by simp)
    rw [collect, if_neg (not_lt.2 h1.2), if_pos h1.1, List.map_cons,
      collect_all start stop off l fun p hp => h p (by simp [hp])]

theorem center_eq {c s : Int} {n : Nat} (h1 : s ≤ c) (h2 : 2 * (c - s) < n) :
    centerOf c (run g s 0 n) = .ok (dist g s ((2 * (c - s)).toNat + 1)) := by
  have hm : ((c : ℝ), dist g s ((2 * (c - s)).toNat + 1)) ∈ run g s 0 n := by
    unfold run
    rw [List.mem_map]
    refine ⟨(2 * (c - s)).toNat, List.mem_range.2 (by omega), ?_⟩
    refine Prod.ext ?_ (by simp only; ring)
    simp only
    have : (((2 * (c - s)).toNat : Nat) : ℝ) = ((2 * (c - s) : Int) : ℝ) := by
      have : ((2 * (c - s)).toNat : Int) = 2 * (c - s) := by omega
      exact_mod_cast congrArg (Int.cast (R := ℝ)) this
    rw [this]; push_cast; ring
  unfold centerOf
  cases hq : (run g s 0 n).reverse.find? fun p => decide (p.1 = (c : ℝ)) with
  | none =>
    exfalso
    rw [List.find?_eq_none] at hq
    have := hq _ (List.mem_reverse.2 hm)
    simp at this
  | some p =>
    simp only
    have e := List.find?_some hq
    have m := List.mem_reverse.1 (List.mem_of_find?_eq_some hq)
    simp only [decide_eq_true_eq] at e
    unfold run at m
    rw [List.mem_map] at m
    obtain ⟨j, _, rfl⟩ := m
    simp only at e ⊢
    have hj : j = (2 * (c - s)).toNat := by
      have : (j : ℝ) = ((2 * (c - s) : Int) : ℝ) := by push_cast; linarith
      have : (j : Int) = 2 * (c - s) := by exact_mod_cast this
      omega
    rw [hj, zero_add]

/-- The map of any speeds. -/
theorem offsets_eq {first last base : ℝ} {start e : Int} (hf : ∀ t, f t = .ok (g t)) (h1 : start ≤ e)
    (h2 : toInt first ≤ e) (h3 : min start (toInt first) < e) :
    ∃ o, Offsets g (toInt first) base (min start (toInt first)) e o ∧
      offsetMap f first last base start (some e) = .ok (table o start e) := by
  set c := toInt first with hc
  set s := min start c with hs
  have s1 : s ≤ start := min_le_left _ _
  have s2 : s ≤ c := min_le_right _ _
  refine ⟨fun j : ℤ => base + dist g s ((j - 2 * s).toNat + 1) - dist g s ((2 * (c - s)).toNat + 1), ⟨?_, ?_⟩, ?_⟩
  · rw [show 2 * c - 2 * s = 2 * (c - s) by ring]; ring
  · intro j hj _
    rw [show (j + 1 - 2 * s).toNat = (j - 2 * s).toNat + 1 by omega]
    conv_lhs => rw [dist]
    have : (s : ℝ) + (((j - 2 * s).toNat + 1 : Nat) : ℝ) / 2 = ((j : ℝ) + 1) / 2 := by
      have e1 : ((j - 2 * s).toNat : Int) = j - 2 * s := by omega
      have e2 : (((j - 2 * s).toNat : Nat) : ℝ) = ((j - 2 * s : Int) : ℝ) := by
        exact_mod_cast congrArg (Int.cast (R := ℝ)) e1
      push_cast
      rw [e2]; push_cast; ring
    rw [this]; ring
  · unfold offsetMap
    simp only [Option.getD_some]
    rw [if_neg (by omega), ← hc, ← hs, max_eq_right (show c ≤ e + 1 by omega), iter_eq hf (by omega)]
    simp only [bind, Except.bind]
    rw [center_eq s2 (by omega)]
    simp only
    congr 1
    have split : (2 * (e + 1 - 1 - s) + 1).toNat = (2 * (start - s)).toNat + (2 * (e - start) + 1).toNat := by
      omega
    have cast1 : (((2 * (start - s)).toNat : Nat) : ℝ) = 2 * ((start : ℝ) - (s : ℝ)) := by
      have h : ((2 * (start - s)).toNat : Int) = 2 * (start - s) := by omega
      rw [← Int.cast_natCast, h]
      push_cast; ring
    unfold run
    rw [split, List.range_add, List.map_append, collect_skip _ _ _ _ _ ?_ h1]
    · rw [collect_all]
      · unfold table
        rw [List.map_map, List.map_map]
        refine List.map_congr_left ?_
        intro j _
        simp only [Function.comp]
        refine Prod.ext ?_ ?_
        · simp only; push_cast; rw [cast1]; ring
        · simp only
          rw [show (2 * start + (j : Int) - 2 * s).toNat = (2 * (start - s)).toNat + j by omega]
          ring
      · intro p hp
        rw [List.mem_map] at hp
        obtain ⟨i, hi, rfl⟩ := hp
        rw [List.mem_map] at hi
        obtain ⟨j, hj, rfl⟩ := hi
        have hj' : (j : Int) ≤ 2 * (e - start) := by have := List.mem_range.1 hj; omega
        have hj'' : (j : ℝ) ≤ 2 * (e - start) := by exact_mod_cast hj'
        have : (0 : ℝ) ≤ j := Nat.cast_nonneg j
        simp only
        push_cast
        rw [cast1]
        constructor <;> linarith
    · intro p hp
      rw [List.mem_map] at hp
      obtain ⟨j, hj, rfl⟩ := hp
      have hj' : (j : ℝ) < 2 * (start - s) := by
        rw [← cast1]; exact_mod_cast List.mem_range.1 hj
      simp only
      linarith

theorem toInt_eq {x : ℝ} {c : Int} (h : Whole x c) : toInt x = c := by
  unfold toInt
  split
  · next h0 => exact Int.floor_eq_iff.2 (h.1 h0)
  · next h0 => exact Int.ceil_eq_iff.2 (h.2 (not_le.1 h0))

/-- Which frame is the last one of the range. -/
def Ends (z : Key) (stop : Option Int) (e : Int) : Prop := stop = some e ∨ stop = none ∧ Whole z.time e

theorem generate_eq {k : Interp} {l : List Key} {a z : Key} (ha : l.head? = some a) (hz : l.getLast? = some z)
    {base : ℝ} {start e : Int} {stop : Option Int} (he : Ends z stop e) :
    generateOffsetMap k l base start stop = offsetMap (valueAt k l) a.time z.time base start (some e) := by
  unfold generateOffsetMap
  rw [ha, hz]
  simp only
  rcases he with rfl | ⟨rfl, h⟩
  · rfl
  · unfold offsetMap
    simp only [Option.getD_none, Option.getD_some]
    rw [toInt_eq h]

/-- **C64 (offsets)**: a speed map has a speed at all times.  When the range is more than one frame
together with the center, the whole part of the time of the first keyframe, and does not end before it,
the map has the offset of every half frame of the range, in order: the offset at the center is the base
frame, and from one half frame to the next it grows by the distance in between. -/
theorem C64_offsets_partial {k : Interp} {l : List Key} {a z : Key} (ha : l.head? = some a)
    (hz : l.getLast? = some z) (hg : ∀ t, valueAt k l t = .ok (g t)) {base : ℝ} {c start e : Int}
    {stop : Option Int} (hc : Whole a.time c) (he : Ends z stop e) (h1 : start ≤ e) (h2 : c ≤ e)
    (h3 : min start c < e) :
    ∃ o, Offsets g c base (min start c) e o ∧
      generateOffsetMap k l base start stop = .ok (table o start e) := by
  rw [generate_eq ha hz he]
  have := offsets_eq (first := a.time) (last := z.time) (base := base) hg h1 (by rw [toInt_eq hc]; exact h2)
    (by rw [toInt_eq hc]; exact h3)
  rwa [toInt_eq hc] at this

/-- **C64 (speeds)**: a speed map with constant, linear or cubic interpolation, whose keyframes are in
order and not closer than `3 / 10^10`, has a speed at all times. -/
theorem C64_answers {k : Interp} (hk : k = .constant ∨ k = .linear ∨ k = .cubic) {l : List Key}
    (hs : InOrder l) (hl : l ≠ [])
    (hgap : ∀ i a b, l[i]? = some a → l[i + 1]? = some b → a.time + 3 / 10 ^ 10 ≤ b.time) :
    ∃ g : ℝ → ℝ, ∀ t, valueAt k l t = .ok (g t) := by
  refine Classical.axiomOfChoice (r := fun t y => valueAt k l t = .ok y) ?_
  intro t
  have hpos : 0 < l.length := List.length_pos_iff.2 hl
  obtain ⟨r, hr, hn⟩ := Keyframes.C39_nearest ltReal_total t hs.times (by simpa using hl)
  have hrl : r < l.length := by simpa using hn.inside
  have ha : l[r]? = some l[r] := List.getElem?_eq_getElem hrl
  rcases lt_or_ge t l[r].time with h | h
  · rcases hn.upto l[r].time (by simp [ha]) with q | q
    · simp only [ltReal, decide_eq_false_iff_not, not_lt] at q
      linarith
    · subst q
      exact ⟨_, C63_before hs ha h k⟩
  · rcases Nat.lt_or_ge (r + 1) l.length with h3 | h3
    · have hb : l[r + 1]? = some l[r + 1] := List.getElem?_eq_getElem h3
      have h2 := hn.after (r + 1) l[r + 1].time (by omega) (by simp [hb])
      simp only [ltReal, decide_eq_true_eq] at h2
      rcases hk with rfl | rfl | rfl
      · exact ⟨_, C63_constant hs ha hb h h2⟩
      · obtain ⟨y, _, q, _⟩ := C63_linear hs ha hb h h2
        exact ⟨y, q⟩
      · obtain ⟨y, _, q, _⟩ := C63_cubic hs ha hb h h2 (hgap r _ _ ha hb)
        exact ⟨y, q⟩
    · have hlast : l.getLast? = some l[r] := by
        rw [List.getLast?_eq_getElem?, ← ha]
        congr 1
        omega
      exact ⟨_, C63_after hs hlast h k⟩

theorem half_bounds {m M : ℝ} (hg : ∀ t, m ≤ g t ∧ g t ≤ M) (x : ℝ) :
    m / 2 ≤ half g x ∧ half g x ≤ M / 2 := by
  unfold half
  have h1 := hg (x - 6 / 10)
  have h2 := hg (x - 5 / 10)
  have h3 := hg (x - 4 / 10)
  have h4 := hg (x - 3 / 10)
  have h5 := hg (x - 2 / 10)
  have h6 := hg (x - 1 / 10)
  constructor <;> linarith [h1.1, h1.2]

/-- **C64 (how fast)**: between two half frames the offset changes as much as the slowest speed gives at
least, and as the fastest one gives at most. -/
theorem C64_between {c lo hi : Int} {base m M : ℝ} {o : ℤ → ℝ} (ho : Offsets g c base lo hi o)
    (hg : ∀ t, m ≤ g t ∧ g t ≤ M) (i : Int) (n : Nat) (h1 : 2 * lo ≤ i) (h2 : i + n ≤ 2 * hi) :
    m * (n / 2) ≤ o (i + n) - o i ∧ o (i + n) - o i ≤ M * (n / 2) := by
  induction n with
  | zero => simp
  | succ n ih =>
    have ih := ih (by push_cast at h2; omega)
    have hst := ho.step (i + n) (by omega) (by push_cast at h2; omega)
    have hb := half_bounds hg (((i + n : ℤ) : ℝ) / 2 + 1 / 2)
    have e : (((i + n : ℤ) : ℝ) + 1) / 2 = ((i + n : ℤ) : ℝ) / 2 + 1 / 2 := by ring
    rw [e] at hst
    have e2 : i + ((n + 1 : Nat) : ℤ) = i + n + 1 := by push_cast; ring
    rw [e2, hst, Nat.cast_succ]
    constructor <;> linarith [ih.1, ih.2, hb.1, hb.2]

/-- **C64 (constant speed)**: the offset at a constant speed is on a straight line through the base
frame at the center. -/
theorem C64_constant {c lo hi : Int} {base s : ℝ} {o : ℤ → ℝ} (ho : Offsets g c base lo hi o)
    (hg : ∀ t, g t = s) (h1 : lo ≤ c) (h2 : c ≤ hi) {i : Int} (h3 : 2 * lo ≤ i) (h4 : i ≤ 2 * hi) :
    o i = base + s * ((i : ℝ) / 2 - c) := by
  have hb : ∀ t, s ≤ g t ∧ g t ≤ s := fun t => ⟨(hg t).ge, (hg t).le⟩
  rcases le_total i (2 * c) with h | h
  · have := C64_between ho hb i (2 * c - i).toNat h3 (by omega)
    have e : i + ((2 * c - i).toNat : ℤ) = 2 * c := by omega
    have e2 : (((2 * c - i).toNat : Nat) : ℝ) = 2 * (c : ℝ) - i := by
      have h : ((2 * c - i).toNat : Int) = 2 * c - i := by omega
      rw [← Int.cast_natCast, h]; push_cast; ring
    rw [e, e2, ho.center] at this
    linarith [this.1, this.2]
  · have := C64_between ho hb (2 * c) (i - 2 * c).toNat (by omega) (by omega)
    have e : 2 * c + ((i - 2 * c).toNat : ℤ) = i := by omega
    have e2 : (((i - 2 * c).toNat : Nat) : ℝ) = (i : ℝ) - 2 * c := by
      have h : ((i - 2 * c).toNat : Int) = i - 2 * c := by omega
      rw [← Int.cast_natCast, h]; push_cast; ring
    rw [e, e2, ho.center] at this
    linarith [this.1, this.2]

/-- **C64 (range)**: the offset of a half frame does not depend on the range that was asked for. -/
theorem C64_same {c lo hi lo' hi' : Int} {base : ℝ} {o o' : ℤ → ℝ} (ho : Offsets g c base lo hi o)
    (ho' : Offsets g c base lo' hi' o') (h1 : lo ≤ c ∧ lo' ≤ c) (h2 : c ≤ hi ∧ c ≤ hi') {i : Int}
    (h3 : 2 * lo ≤ i ∧ 2 * lo' ≤ i) (h4 : i ≤ 2 * hi ∧ i ≤ 2 * hi') : o i = o' i := by
  have up : ∀ n : Nat, 2 * c + n ≤ 2 * hi → 2 * c + n ≤ 2 * hi' → o (2 * c + n) = o' (2 * c + n) := by
    intro n
    induction n with
    | zero => intro _ _; simp [ho.center, ho'.center]
    | succ n ih =>
      intro q1 q2
      push_cast at q1 q2
      have e : 2 * c + ((n + 1 : Nat) : ℤ) = 2 * c + n + 1 := by push_cast; ring
      rw [e, ho.step _ (by omega) (by omega), ho'.step _ (by omega) (by omega), ih (by omega) (by omega)]
  have down : ∀ n : Nat, 2 * lo ≤ 2 * c - n → 2 * lo' ≤ 2 * c - n → o (2 * c - n) = o' (2 * c - n) := by
    intro n
    induction n with
    | zero => intro _ _; simp [ho.center, ho'.center]
    | succ n ih =>
      intro q1 q2
      push_cast at q1 q2
      have e : 2 * c - (n : ℤ) = (2 * c - ((n + 1 : Nat) : ℤ)) + 1 := by push_cast; ring
      have ih := ih (by omega) (by omega)
      rw [e, ho.step _ (by push_cast; omega) (by push_cast; omega),
        ho'.step _ (by push_cast; omega) (by push_cast; omega)] at ih
      linarith
  rcases le_total i (2 * c) with h | h
  · have := down (2 * c - i).toNat (by omega) (by omega)
    rwa [show 2 * c - ((2 * c - i).toNat : ℤ) = i by omega] at this
  · have := up (i - 2 * c).toNat (by omega) (by omega)
    rwa [show 2 * c + ((i - 2 * c).toNat : ℤ) = i by omega] at this

/-- **C64 counterexample (one frame)**: when the range is the frame of the center alone, as it is by
default for a speed map with one keyframe at 0, there is no map: `UnboundLocalError`. -/
theorem C64_one_frame_counterexample {k : Interp} {l : List Key} {a z : Key} (ha : l.head? = some a)
    (hz : l.getLast? = some z) {base : ℝ} {c : Int} {stop : Option Int} (hc : Whole a.time c)
    (he : Ends z stop c) : generateOffsetMap k l base c stop = .error .unboundLocal := by
  rw [generate_eq ha hz he]
  unfold offsetMap
  simp only [Option.getD_some]
  rw [toInt_eq hc, if_neg (by omega)]
  unfold integrateIter
  rw [show (max c (c + 1) - 1 - min c c).toNat = 0 by omega]
  rfl

/-- **C64 counterexample (before the center)**: when the range ends before the center there is no map:
`TypeError`, or `UnboundLocalError` for the frame just before it. -/
theorem C64_before_counterexample {k : Interp} {l : List Key} {a z : Key} (ha : l.head? = some a)
    (hz : l.getLast? = some z) (hg : ∀ t, valueAt k l t = .ok (g t)) {base : ℝ} {c start e : Int}
    {stop : Option Int} (hc : Whole a.time c) (he : Ends z stop e) (h1 : start ≤ e) (h2 : e < c) :
    generateOffsetMap k l base start stop =
      .error (if start + 1 < c then .typeError else .unboundLocal) := by
  rw [generate_eq ha hz he]
  unfold offsetMap
  simp only [Option.getD_some]
  rw [toInt_eq hc, if_neg (by omega), min_eq_left (by omega : start ≤ c), max_eq_left (by omega : e + 1 ≤ c)]
  split
  · next h =>
    rw [iter_eq hg (by omega)]
    simp only [bind, Except.bind]
    have : centerOf c (run g start 0 (2 * (c - 1 - start) + 1).toNat) = .error .typeError := by
      unfold centerOf
      cases hq : (run g start 0 (2 * (c - 1 - start) + 1).toNat).reverse.find? fun p => decide (p.1 = (c : ℝ)) with
      | none => rfl
      | some p =>
        exfalso
        have e := List.find?_some hq
        have m := List.mem_reverse.1 (List.mem_of_find?_eq_some hq)
        simp only [decide_eq_true_eq] at e
        unfold run at m
        rw [List.mem_map] at m
        obtain ⟨j, hj, rfl⟩ := m
        simp only at e
        have hj := List.mem_range.1 hj
        have : (j : ℝ) = ((2 * (c - start) : Int) : ℝ) := by push_cast; linarith
        have : (j : Int) = 2 * (c - start) := by exact_mod_cast this
        omega
    rw [this]
  · next h =>
    unfold integrateIter
    rw [show (c - 1 - start).toNat = 0 by omega]
    rfl

/-- The hypotheses are met by a map of two keyframes from frame 0 to frame 4. -/
theorem C64_example : ∃ g : ℝ → ℝ,
    (∀ t, valueAt .linear [⟨1, 2, (0, 0), (0, 0)⟩, ⟨4, 5, (0, 0), (0, 0)⟩] t = .ok (g t)) ∧
    Whole 1 1 ∧ Ends ⟨4, 5, (0, 0), (0, 0)⟩ none 4 ∧
    ∃ o, Offsets g 1 7 0 4 o ∧ (table o 0 4).length = 9 ∧
      generateOffsetMap .linear [⟨1, 2, (0, 0), (0, 0)⟩, ⟨4, 5, (0, 0), (0, 0)⟩] 7 0 none =
        .ok (table o 0 4) := by
  have hs : InOrder [⟨1, 2, (0, 0), (0, 0)⟩, ⟨4, 5, (0, 0), (0, 0)⟩] := by
    simp only [InOrder, List.pairwise_cons, List.mem_cons, List.not_mem_nil, or_false, forall_eq]
    norm_num
  obtain ⟨g, hg⟩ := C64_answers (k := .linear) (.inr (.inl rfl)) hs (by simp) (by
    intro i a b ha hb
    match i with
    | 0 => cases ha; cases hb; norm_num
    | i + 1 => simp at hb)
  have w : Whole 1 1 := ⟨fun _ => by norm_num, fun h => by norm_num at h⟩
  have he : Ends ⟨4, 5, (0, 0), (0, 0)⟩ none 4 := .inr ⟨rfl, fun _ => by norm_num, fun h => by norm_num at h⟩
  obtain ⟨o, h1, h2⟩ := C64_offsets_partial (base := 7) (start := 0) rfl rfl hg w he (by norm_num) (by norm_num)
    (by norm_num)
  exact ⟨g, hg, w, he, o, h1, by simp [table], h2⟩

end Verif.Interpolation
