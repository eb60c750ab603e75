import Verif.Spec.Timeline
/-!
# C38: positions in a sequence, and the component at a time
-/
namespace Verif.Sequence
open Timeline

theorem total_append (a b : List Comp) : total (a ++ b) = total a + total b := by
  simp [total]

theorem total_cons (c : Comp) (l : List Comp) : total (c :: l) = advance c + total l := by
  simp [total]

/-- Start of the component after a prefix. -/
theorem start_mid (pre : List Comp) (c : Comp) (r : List Comp) :
    start (pre ++ c :: r) pre.length = total pre - if c.trans then c.len else 0 := by
  simp [start]

theorem positionsFrom_spec (l : List Comp) : ∀ (pre : List Comp) (j : Nat),
    (positionsFrom pre.length (total pre) l)[j]? =
      (l[j]?).map fun c => (pre.length + j, start (pre ++ l) (pre.length + j), c) := by
  induction l with
  | nil => intro pre j; simp [positionsFrom]
  | cons c r ih =>
    intro pre j
    have hadv : (if c.trans then total pre - c.len else total pre + c.len) = total (pre ++ [c]) := by
      rw [total_append, total_cons]; simp only [advance, total, List.map_nil, List.sum_nil]
      split <;> omega
    have hl : (pre ++ [c]).length = pre.length + 1 := by simp
    have hh : positionsFrom pre.length (total pre) (c :: r) =
        (pre.length, start (pre ++ c :: r) pre.length, c) ::
          positionsFrom (pre ++ [c]).length (total (pre ++ [c])) r := by
      rw [start_mid, ← hadv, hl]
      simp only [positionsFrom]
      split <;> simp
    rw [hh]
    cases j with
    | zero => simp
    | succ j =>
      simp only [List.getElem?_cons_succ]
      rw [ih]
      cases r[j]? with
      | none => rfl
      | some d =>
        simp only [Option.map_some, hl, List.append_assoc, List.singleton_append]
        rw [show pre.length + 1 + j = pre.length + (j + 1) by omega]

/-- **C38 (positions)**: component number `i` is listed with index `i` and its start time. -/
theorem C38_positions (l : List Comp) (i : Nat) :
    (positions l)[i]? = (l[i]?).map fun c => (i, start l i, c) := by
  have := positionsFrom_spec l [] i
  simpa [total, positions] using this

theorem C38_positions_length (l : List Comp) : (positions l).length = l.length := by
  have : ∀ (l : List Comp) (i : Nat) (a : Int), (positionsFrom i a l).length = l.length := by
    intro l
    induction l with
    | nil => intro i a; rfl
    | cons c r ih => intro i a; simp only [positionsFrom]; split <;> simp [ih]
  exact this l 0 0

/-- **C38 (length)**: the length of a slot holding a sequence is the total time. -/
theorem C38_length (l : List Comp) : seqLength l = total l := by
  have : ∀ (l : List Comp) (a : Int),
      l.foldl (fun a c => if c.trans then a - c.len else a + c.len) a = a + total l := by
    intro l
    induction l with
    | nil => intro a; simp [total]
    | cons c r ih =>
      intro a
      rw [List.foldl_cons, ih, total_cons]
      by_cases h : c.trans = true <;> simp [advance, h] <;> omega
  rw [seqLength, this]; omega

/-- **C38 counterexample**: the length of a slot holding a nested scope is 0 whatever it contains. -/
theorem C38_nested_counterexample (slots : List Int) : nestedLength slots = 0 := by
  have : ∀ (l : List Int) (a : Int), l.foldl (fun a _ => a) a = a := by
    intro l; induction l with
    | nil => intro a; rfl
    | cons _ r ih => intro a; exact ih a
  exact this slots 0

/-! ## The loop -/

/-- Conditions on the rest of the list; `p` is the length of the segment before, if it is one. -/
def wf : Option Int → List Comp → Prop
  | _, [] => True
  | p, c :: r => 0 ≤ c.len ∧
    if c.trans then 0 < c.len ∧ (∃ L, p = some L ∧ c.len ≤ L) ∧ wf none r else wf (some c.len) r

/-- No straight cut at `t` in the rest of the list. -/
def cutFree (t : Int) : Bool → Int → List Comp → Prop
  | _, _, [] => True
  | seg, a, c :: r =>
    if c.trans then cutFree t false (a - c.len) r
    else (seg = true → a ≠ t) ∧ cutFree t true (a + c.len) r

theorem wf_mono {l : List Comp} : ∀ {p : Option Int} {i : Nat} {a : Int}, wf p l → 0 ≤ p.getD 0 →
    ∀ e ∈ positionsFrom i a l, a - p.getD 0 ≤ e.2.1 := by
  induction l with
  | nil => intro p i a _ _ e he; simp [positionsFrom] at he
  | cons c r ih =>
    intro p i a hw hp e he
    simp only [wf] at hw
    simp only [positionsFrom] at he
    by_cases hc : c.trans = true
    · simp only [hc, if_true] at hw he
      obtain ⟨h0, h1, ⟨L, rfl, hL⟩, h2⟩ := hw
      simp only [Option.getD_some]
      rcases List.mem_cons.1 he with rfl | he
      · simp only; omega
      · have := ih h2 (by simp) e he
        simp at this; omega
    · simp only [hc, if_false, Bool.false_eq_true] at hw he
      rcases List.mem_cons.1 he with rfl | he
      · simp only; omega
      · have := ih hw.2 (by simpa using hw.1) e he
        simp at this; omega

/-- An entry of the listing is there at time `t`. -/
def cov (t : Int) (e : Nat × Int × Comp) : Prop := e.2.1 ≤ t ∧ t < e.2.1 + e.2.2.len

theorem loop_spec {t : Int} : ∀ (l : List Comp),
    -- after a segment at q of length L
    (∀ (i j : Nat) (q L : Int), wf (some L) l → 0 ≤ L → q < t → t < q + L + total l →
      cutFree t true (q + L) l →
      ∃ e ∈ (j, q, (⟨false, L⟩ : Comp)) :: positionsFrom i (q + L) l,
        indexLoop t (some j) (positionsFrom i (q + L) l) = some e.1 ∧ cov t e ∧
        (e.2.2.trans = false → ∀ e' ∈ positionsFrom i (q + L) l, e'.2.2.trans = true → ¬ cov t e')) ∧
    -- after a transition at a that is not there any more
    (∀ (i j : Nat) (a : Int), wf none l → a < t → t < a + total l → cutFree t false a l →
      ∃ e ∈ positionsFrom i a l,
        indexLoop t (some j) (positionsFrom i a l) = some e.1 ∧ cov t e ∧
        (e.2.2.trans = false → ∀ e' ∈ positionsFrom i a l, e'.2.2.trans = true → ¬ cov t e')) := by
  intro l
  induction l with
  | nil =>
    refine ⟨?_, ?_⟩
    · intro i j q L _ _ hq ht _
      refine ⟨_, List.mem_cons_self, rfl, ⟨by simp only; omega, ?_⟩, ?_⟩
      · simp [total] at ht ⊢; omega
      · intro _ e' he'; simp [positionsFrom] at he'
    · intro i j a _ ha ht _; simp [total] at ht; omega
  | cons c r ih =>
    refine ⟨?_, ?_⟩
    · intro i j q L hw hL hq ht hcf
      simp only [wf] at hw
      simp only [cutFree] at hcf
      rw [total_cons] at ht
      by_cases hc : c.trans = true
      · simp only [hc, if_true] at hw hcf
        obtain ⟨h0, h1, ⟨L', e', hL'⟩, h2⟩ := hw
        cases e'
        have hp : positionsFrom i (q + L) (c :: r) =
            (i, q + L - c.len, c) :: positionsFrom (i + 1) (q + L - c.len) r := by
          simp [positionsFrom, hc]
        have hadv : advance c = -c.len := by simp [advance, hc]
        rw [hp]
        by_cases hcov : q + L - c.len ≤ t ∧ t < q + L - c.len + c.len
        · refine ⟨_, List.mem_cons_of_mem _ List.mem_cons_self, ?_, hcov, ?_⟩
          · simp only [indexLoop, hc, hcov, and_self, if_true]
          · intro h; rw [hc] at h; cases h
        · by_cases hge : q + L - c.len ≥ t
          · refine ⟨_, List.mem_cons_self, ?_, ⟨by simp only; omega, by simp only; omega⟩, ?_⟩
            · simp only [indexLoop, hcov, and_false, if_false, hge, Option.isSome_some, and_self, if_true]
            · intro _ e he _ hce
              rcases List.mem_cons.1 he with rfl | he
              · exact hcov hce
              · have := wf_mono h2 (by simp) e he
                simp at this
                have := hce.1
                -- then the transition itself is there
                apply hcov
                constructor <;> omega
          · obtain ⟨e, he, q1, q2, q3⟩ := ih.2 (i + 1) i (q + L - c.len) h2 (by omega)
              (by omega) hcf
            refine ⟨e, List.mem_cons_of_mem _ (List.mem_cons_of_mem _ he), ?_, q2, ?_⟩
            · simp only [indexLoop, hcov, and_false, if_false, hge]
              exact q1
            · intro hs e' he' ht' hce
              rcases List.mem_cons.1 he' with rfl | he'
              · exact hcov hce
              · exact q3 hs e' he' ht' hce
      · simp only [hc, if_false, Bool.false_eq_true] at hw hcf
        have hcF : c.trans = false := by simpa using hc
        have hp : positionsFrom i (q + L) (c :: r) =
            (i, q + L, c) :: positionsFrom (i + 1) (q + L + c.len) r := by
          simp [positionsFrom, hc]
        have hadv : advance c = c.len := by simp [advance, hc]
        rw [hp]
        by_cases hge : q + L ≥ t
        · have hne := hcf.1 trivial
          refine ⟨_, List.mem_cons_self, ?_, ⟨by simp only; omega, by simp only; omega⟩, ?_⟩
          · simp only [indexLoop, hcF, Bool.false_eq_true, false_and, if_false, hge,
              Option.isSome_some, and_self, if_true]
          · intro _ e he het hce
            rcases List.mem_cons.1 he with rfl | he
            · rw [hcF] at het; cases het
            · have := wf_mono hw.2 (by simpa using hw.1) e he
              simp at this
              have := hce.1
              omega
        · obtain ⟨e, he, q1, q2, q3⟩ := ih.1 (i + 1) i (q + L) c.len hw.2 hw.1 (by omega)
            (by omega) hcf.2
          have hcc : (⟨false, c.len⟩ : Comp) = c := by cases c; simp_all
          rw [hcc] at he
          refine ⟨e, List.mem_cons_of_mem _ he, ?_, q2, ?_⟩
          · simp only [indexLoop, hcF, Bool.false_eq_true, false_and, if_false, hge, and_false]
            exact q1
          · intro hs e' he' ht' hce
            rcases List.mem_cons.1 he' with rfl | he'
            · rw [hcF] at ht'; cases ht'
            · exact q3 hs e' he' ht' hce
    · intro i j a hw ha ht hcf
      simp only [wf] at hw
      simp only [cutFree] at hcf
      rw [total_cons] at ht
      by_cases hc : c.trans = true
      · simp only [hc, if_true] at hw
        obtain ⟨_, _, ⟨L, e, _⟩, _⟩ := hw
        cases e
      · simp only [hc, if_false, Bool.false_eq_true] at hw hcf
        have hcF : c.trans = false := by simpa using hc
        have hp : positionsFrom i a (c :: r) = (i, a, c) :: positionsFrom (i + 1) (a + c.len) r := by
          simp [positionsFrom, hc]
        have hadv : advance c = c.len := by simp [advance, hc]
        rw [hp]
        obtain ⟨e, he, q1, q2, q3⟩ := ih.1 (i + 1) i a c.len hw.2 hw.1 ha (by omega) hcf.2
        have hcc : (⟨false, c.len⟩ : Comp) = c := by cases c; simp_all
        rw [hcc] at he
        refine ⟨e, he, ?_, q2, ?_⟩
        · have hge : ¬ a ≥ t := by omega
          simp only [indexLoop, hcF, Bool.false_eq_true, false_and, if_false, hge, and_false]
          exact q1
        · intro hs e' he' ht' hce
          rcases List.mem_cons.1 he' with rfl | he'
          · rw [hcF] at ht'; cases ht'
          · exact q3 hs e' he' ht' hce

/-- The length of the last component of a prefix, when it is a segment. -/
def lastSeg (pre : List Comp) : Option Int :=
  match pre.getLast? with
  | some c => if c.trans then none else some c.len
  | none => none

theorem wf_of : ∀ (l pre : List Comp), Wf (pre ++ l) → wf (lastSeg pre) l
  | [], _, _ => trivial
  | c :: r, pre, h => by
    have hc : c ∈ pre ++ c :: r := by simp
    have ih := wf_of r (pre ++ [c]) (by simpa using h)
    have hl : lastSeg (pre ++ [c]) = if c.trans then none else some c.len := by simp [lastSeg]
    rw [hl] at ih
    simp only [wf]
    refine ⟨h.len c hc, ?_⟩
    by_cases ht : c.trans = true
    · simp only [ht, if_true] at ih ⊢
      refine ⟨h.pos c hc ht, ?_, ih⟩
      rcases List.eq_nil_or_concat pre with rfl | ⟨init, d, rfl⟩
      · have := h.first c (by simp)
        rw [this] at ht; cases ht
      · have := h.prev init.length d c (by simp) (by simp) ht
        refine ⟨d.len, by simp [lastSeg, this.1], this.2⟩
    · simp only [ht, if_false, Bool.false_eq_true] at ih ⊢
      exact ih

theorem cutFree_of {t : Int} : ∀ (l pre : List Comp), NoCut (pre ++ l) t →
    cutFree t (lastSeg pre).isSome (total pre) l
  | [], _, _ => trivial
  | c :: r, pre, h => by
    have ih := cutFree_of r (pre ++ [c]) (by simpa using h)
    have hl : lastSeg (pre ++ [c]) = if c.trans then none else some c.len := by simp [lastSeg]
    rw [hl, total_append, total_cons] at ih
    simp only [cutFree]
    by_cases ht : c.trans = true
    · simp only [ht, if_true, advance, total, List.map_nil, List.sum_nil, Option.isSome_none] at ih ⊢
      rw [show (List.map advance pre).sum - c.len = (List.map advance pre).sum + (-c.len + 0) by omega]
      exact ih
    · simp only [ht, if_false, Bool.false_eq_true, advance, total, List.map_nil, List.sum_nil,
        Option.isSome_some] at ih ⊢
      refine ⟨?_, by rw [show (List.map advance pre).sum + c.len =
        (List.map advance pre).sum + (c.len + 0) by omega]; exact ih⟩
      intro hs
      rcases List.eq_nil_or_concat pre with rfl | ⟨init, d, rfl⟩
      · simp [lastSeg] at hs
      · have hd : d.trans = false := by
          simp only [lastSeg, List.concat_eq_append, List.getLast?_append, List.getLast?_singleton,
            Option.some_or] at hs
          cases hd : d.trans <;> simp [hd] at hs ⊢
        have := h init.length d c (by simp) (by simp) hd (by simpa using ht)
        have hst := start_mid (init.concat d) c r
        simp only [List.concat_eq_append, List.length_append, List.length_singleton, ht, if_false,
          Bool.false_eq_true, total] at hst this ⊢
        intro e
        apply this
        rw [hst]; omega

/-- **C38, the part that holds**: at a time inside a well formed sequence at which no segment starts
directly after another segment, the component found is there at that time; and it is a segment only
when no transition is there.  (Missing: straight cuts, where it is false.) -/
theorem C38_index_partial {l : List Comp} {t : Int} (hw : Wf l) (h0 : 0 < t) (h1 : t < total l)
    (hn : NoCut l t) :
    ∃ i, indexAtTime l t = some i ∧ Covers l i t ∧
      ((∃ c, l[i]? = some c ∧ c.trans = false) → ∀ j c, l[j]? = some c → c.trans = true →
        ¬ Covers l j t) := by
  have w := wf_of l [] hw
  have c := cutFree_of l [] hn
  cases l with
  | nil => simp [total] at h1; omega
  | cons a r =>
    have hsp : ¬ t ≤ 0 := by omega
    simp only [indexAtTime, hsp, if_false]
    have hloop : ∃ e ∈ positions (a :: r), indexLoop t none (positions (a :: r)) = some e.1 ∧ cov t e ∧
        (e.2.2.trans = false → ∀ e' ∈ positions (a :: r), e'.2.2.trans = true → ¬ cov t e') := by
      have ha : a.trans = false := hw.first a rfl
      have hx := (loop_spec (t := t) (a :: r)).2 0 0 0 w h0 (by omega) c
      -- the first step is the same without a component before
      have e1 : indexLoop t none (positions (a :: r)) = indexLoop t (some 0) (positions (a :: r)) := by
        have hge : ¬ (0 : Int) ≥ t := by omega
        simp only [positions, positionsFrom, ha, Bool.false_eq_true, if_false, indexLoop, false_and,
          hge, and_false]
      rw [e1]; exact hx
    obtain ⟨e, he, q1, q2, q3⟩ := hloop
    have key : ∀ e ∈ positions (a :: r), ∃ c, (a :: r)[e.1]? = some c ∧ c = e.2.2 ∧
        e.2.1 = start (a :: r) e.1 := by
      intro e he
      obtain ⟨i, hi, hei⟩ := List.mem_iff_getElem.1 he
      have h2 : (positions (a :: r))[i]? = some e := by rw [List.getElem?_eq_getElem hi, hei]
      rw [C38_positions] at h2
      cases h3 : (a :: r)[i]? with
      | none => rw [h3] at h2; simp at h2
      | some c =>
        rw [h3] at h2
        simp only [Option.map_some, Option.some.injEq] at h2
        subst h2
        exact ⟨c, h3, rfl, rfl⟩
    obtain ⟨c, g1, g2, g3⟩ := key e he
    refine ⟨e.1, q1, ⟨c, g1, ?_⟩, ?_⟩
    · rw [← g3, g2]; exact q2
    · rintro ⟨c', hc', hs⟩ j d hj hd ⟨d', hd', hcov⟩
      rw [hj] at hd'; cases hd'
      rw [g1] at hc'; cases hc'
      have hm : (j, start (a :: r) j, d) ∈ positions (a :: r) := by
        apply List.mem_of_getElem? (i := j)
        rw [C38_positions, hj]; rfl
      exact q3 (by rw [← g2]; exact hs) _ hm hd hcov

/-- **C38 (start)**: at time 0 and before, the first component. -/
theorem C38_start (l : List Comp) (t : Int) (h : t ≤ 0) : indexAtTime l t = some 0 := by
  simp [indexAtTime, h]

theorem loop_segments {t : Int} : ∀ (l : List Comp) (i j : Nat) (q L : Int),
    (∀ c ∈ l, c.trans = false ∧ 0 ≤ c.len) → q < t → t ≤ q + L + total l →
    ∃ e ∈ (j, q, (⟨false, L⟩ : Comp)) :: positionsFrom i (q + L) l,
      indexLoop t (some j) (positionsFrom i (q + L) l) = some e.1 ∧ e.2.1 < t ∧ t ≤ e.2.1 + e.2.2.len
  | [], i, j, q, L, _, hq, ht => by
    refine ⟨_, List.mem_cons_self, rfl, hq, ?_⟩
    simp [total] at ht ⊢; omega
  | c :: r, i, j, q, L, hs, hq, ht => by
    have hcF := (hs c (by simp)).1
    have hp : positionsFrom i (q + L) (c :: r) =
        (i, q + L, c) :: positionsFrom (i + 1) (q + L + c.len) r := by
      simp [positionsFrom, hcF]
    rw [total_cons] at ht
    have hadv : advance c = c.len := by simp [advance, hcF]
    rw [hp]
    by_cases hge : q + L ≥ t
    · refine ⟨_, List.mem_cons_self, ?_, hq, hge⟩
      simp only [indexLoop, hcF, Bool.false_eq_true, false_and, if_false, hge,
        Option.isSome_some, and_self, if_true]
    · obtain ⟨e, he, q1, q2⟩ := loop_segments (t := t) r (i + 1) i (q + L) c.len
        (fun d hd => hs d (by simp [hd])) (by omega) (by omega)
      have hcc : (⟨false, c.len⟩ : Comp) = c := by cases c; simp_all
      rw [hcc] at he
      refine ⟨e, List.mem_cons_of_mem _ he, ?_, q2⟩
      simp only [indexLoop, hcF, Bool.false_eq_true, false_and, if_false, hge, and_false]
      exact q1

/-- **C38 (what happens at cuts)**: in a sequence without transitions the component found is the one
with `start < t ≤ start + length`: at every cut the component before the cut. -/
theorem C38_segments {l : List Comp} {t : Int} (hs : ∀ c ∈ l, c.trans = false ∧ 0 ≤ c.len)
    (h0 : 0 < t) (h1 : t ≤ total l) :
    ∃ i c, indexAtTime l t = some i ∧ l[i]? = some c ∧ start l i < t ∧ t ≤ start l i + c.len := by
  cases l with
  | nil => simp [total] at h1; omega
  | cons a r =>
    have ha := (hs a (by simp)).1
    have hsp : ¬ t ≤ 0 := by omega
    simp only [indexAtTime, hsp, if_false]
    rw [total_cons] at h1
    have hadv : advance a = a.len := by simp [advance, ha]
    obtain ⟨e, he, q1, q2⟩ := loop_segments (t := t) r 1 0 0 a.len (fun d hd => hs d (by simp [hd])) h0
      (by omega)
    have hp : positions (a :: r) = (0, 0, a) :: positionsFrom 1 (0 + a.len) r := by
      simp [positions, positionsFrom, ha]
    have hcc : (⟨false, a.len⟩ : Comp) = a := by cases a; simp_all
    rw [hcc, ← hp] at he
    obtain ⟨i, hi, hei⟩ := List.mem_iff_getElem.1 he
    have h2 : (positions (a :: r))[i]? = some e := by rw [List.getElem?_eq_getElem hi, hei]
    rw [C38_positions] at h2
    cases h3 : (a :: r)[i]? with
    | none => rw [h3] at h2; simp at h2
    | some c =>
      rw [h3] at h2
      simp only [Option.map_some, Option.some.injEq] at h2
      subst h2
      refine ⟨i, c, ?_, h3, q2⟩
      have hge : ¬ (0 : Int) ≥ t := by omega
      rw [hp]
      simp only [indexLoop, ha, Bool.false_eq_true, false_and, if_false, hge, and_false]
      exact q1

/-- **C38 counterexample**: two clips of length 10: at time 10 the second clip is there, but the
first is returned. -/
theorem C38_cut_counterexample :
    Wf [⟨false, 10⟩, ⟨false, 10⟩] ∧ Covers [⟨false, 10⟩, ⟨false, 10⟩] 1 10 ∧
    ¬ Covers [⟨false, 10⟩, ⟨false, 10⟩] 0 10 ∧ indexAtTime [⟨false, 10⟩, ⟨false, 10⟩] 10 = some 0 := by
  refine ⟨⟨by decide, by decide, by simp, ?_⟩, ⟨_, rfl, by decide, by decide⟩, ?_, by decide⟩
  · intro i c d h1 h2 h3
    match i, h1, h2 with
    | 0, h1, h2 => simp at h2; subst h2; cases h3
    | n + 1, h1, h2 => simp at h2
  · rintro ⟨c, h1, _, h3⟩
    simp at h1; subst h1
    revert h3; decide

/-- The hypotheses of `C38_index_partial` are met by a sequence with a transition, at a time in the
transition, and at a time in the last clip. -/
example : let l : List Comp := [⟨false, 10⟩, ⟨true, 4⟩, ⟨false, 12⟩, ⟨false, 5⟩]
    Wf l ∧ 0 < (7 : Int) ∧ (20 : Int) < total l ∧ NoCut l 7 ∧ NoCut l 20 ∧
    indexAtTime l 7 = some 1 ∧ indexAtTime l 20 = some 3 := by
  intro l
  refine ⟨⟨by decide, by decide, by simp [l], ?_⟩, by decide, by decide, ?_, ?_, by decide, by decide⟩
  · intro i c d h1 h2 h3
    match i, h1, h2 with
    | 0, h1, h2 => simp [l] at h1 h2; subst h1 h2; decide
    | 1, h1, h2 => simp [l] at h1 h2; subst h1 h2; cases h3
    | 2, h1, h2 => simp [l] at h1 h2; subst h1 h2; cases h3
    | n + 3, h1, h2 => simp [l] at h2
  all_goals
    intro i c d h1 h2 h3 h4
    match i, h1, h2 with
    | 0, h1, h2 => simp [l] at h1 h2; subst h1 h2; cases h4
    | 1, h1, h2 => simp [l] at h1 h2; subst h1 h2; cases h3
    | 2, h1, h2 => decide
    | n + 3, h1, h2 => simp [l] at h2

end Verif.Sequence
