import Verif.Spec.Source
import Verif.Props.C38_Sequence
/-!
# C57: following a source clip
-/
namespace Verif.Walk
open Verif.Sequence Verif.Timeline Verif.Spec.Source

/-! ## The component at a time -/

theorem rest_nonneg : ∀ (l : List Comp) (p : Option Int), wf p l → 0 ≤ p.getD 0 → 0 ≤ p.getD 0 + total l := by
  intro l
  induction l with
  | nil => intro p _ h; simpa [total] using h
  | cons c r ih =>
    intro p hw hp
    simp only [wf] at hw
    rw [total_cons]
    by_cases hc : c.trans = true
    · simp only [hc, if_true] at hw
      obtain ⟨_, _, ⟨L, rfl, hL⟩, h2⟩ := hw
      have := ih none h2 (by simp)
      simp only [Option.getD_none, Option.getD_some, advance, hc, if_true] at *
      omega
    · simp only [hc, if_false, Bool.false_eq_true] at hw
      have := ih (some c.len) hw.2 hw.1
      simp only [Option.getD_some, advance, hc, if_false, Bool.false_eq_true] at *
      omega

/-- What comes after a segment that is there while no transition is there. -/
theorem after_segment {pre r : List Comp} {c : Comp} {t : Int} (hw : Wf (pre ++ c :: r)) (hc : c.trans = false) (ht : t < total pre + c.len)
    (hn : ∀ j d, (pre ++ c :: r)[j]? = some d → d.trans = true → ¬ Covers (pre ++ c :: r) j t) :
    t < total (pre ++ c :: r) ∧ ∀ j d, (pre ++ c :: r)[j]? = some d → pre.length < j → t < start (pre ++ c :: r) j := by
  have w := wf_of r (pre ++ [c]) (by simpa using hw)
  have hl : lastSeg (pre ++ [c]) = some c.len := by simp [lastSeg, hc]
  have hlen : (pre ++ [c]).length = pre.length + 1 := by simp
  rw [hl] at w
  have hc0 : 0 ≤ c.len := hw.len c (by simp)
  have hpc : total (pre ++ [c]) = total pre + c.len := by rw [total_append, total_cons]; simp [advance, hc, total]
  have hsp := positionsFrom_spec r (pre ++ [c])
  rw [show pre ++ [c] ++ r = pre ++ c :: r by simp] at hsp
  have key : t < total (pre ++ c :: r) ∧ ∀ e ∈ positionsFrom (pre ++ [c]).length (total (pre ++ [c])) r, t < e.2.1 := by
    cases r with
    | nil => exact ⟨by rw [hpc]; exact ht, by simp [positionsFrom]⟩
    | cons d r =>
      simp only [wf] at w
      have htot : total (pre ++ c :: d :: r) = total pre + c.len + (advance d + total r) := by
        rw [show pre ++ c :: d :: r = (pre ++ [c]) ++ d :: r by simp, total_append, hpc, total_cons]
      by_cases hd : d.trans = true
      · simp only [hd, if_true] at w
        obtain ⟨w0, w1, ⟨L, e, hL⟩, w2⟩ := w
        have hst : start (pre ++ c :: d :: r) (pre.length + 1) = total pre + c.len - d.len := by
          have := start_mid (pre ++ [c]) d r
          simpa [hpc, hd] using this
        have hlt : t < total pre + c.len - d.len := by
          have := hn (pre.length + 1) d (by simp) hd
          by_cases hge : t < total pre + c.len - d.len
          · exact hge
          · exact (this ⟨d, by simp, by rw [hst]; omega, by rw [hst]; omega⟩).elim
        have hr := rest_nonneg r none w2 (by simp)
        simp only [Option.getD_none] at hr
        refine ⟨by rw [htot]; simp only [advance, hd, if_true]; omega, ?_⟩
        intro e he
        simp only [positionsFrom, hd, if_true] at he
        rcases List.mem_cons.1 he with rfl | he
        · simp only [hpc]; omega
        · have := wf_mono w2 (by simp) e he
          simp only [Option.getD_none, hpc] at this; omega
      · simp only [hd, if_false, Bool.false_eq_true] at w
        have hr := rest_nonneg r (some d.len) w.2 w.1
        simp only [Option.getD_some] at hr
        refine ⟨by rw [htot]; simp only [advance, hd, if_false, Bool.false_eq_true]; omega, ?_⟩
        intro e he
        simp only [positionsFrom, hd, if_false, Bool.false_eq_true] at he
        rcases List.mem_cons.1 he with rfl | he
        · simp only [hpc]; omega
        · have := wf_mono w.2 w.1 e he
          simp only [Option.getD_some, hpc] at this; omega
  refine ⟨key.1, ?_⟩
  intro j d hj hlt
  obtain ⟨k, rfl⟩ : ∃ k, j = (pre ++ [c]).length + k := ⟨j - (pre.length + 1), by rw [hlen]; omega⟩
  have h1 := hsp k
  have h2 : r[k]? = some d := by
    rw [show pre ++ c :: r = (pre ++ [c]) ++ r by simp, List.getElem?_append_right (by omega)] at hj
    simpa using hj
  rw [h2, Option.map_some] at h1
  exact key.2 _ (List.mem_of_getElem? h1)

theorem split_at {l : List Comp} {i : Nat} {c : Comp} (h : l[i]? = some c) : ∃ pre r, l = pre ++ c :: r ∧ pre.length = i := by
  obtain ⟨hi, he⟩ := List.getElem?_eq_some_iff.1 h
  refine ⟨l.take i, l.drop (i + 1), ?_, by simp; omega⟩
  rw [← he, ← List.drop_eq_getElem_cons hi, List.take_append_drop]

/-- Two segments that are there at a time when no transition is there are one. -/
theorem cover_unique {l : List Comp} {t : Int} {i j : Nat} {c d : Comp} (hw : Wf l) (hi : Covers l i t) (hj : Covers l j t) (hc : l[i]? = some c) (hd : l[j]? = some d)
    (hct : c.trans = false) (hdt : d.trans = false) (hn : ∀ j d, l[j]? = some d → d.trans = true → ¬ Covers l j t) : i = j := by
  have main : ∀ i j c d, Covers l i t → Covers l j t → l[i]? = some c → l[j]? = some d → c.trans = false → i < j → False := by
    intro i j c d hi hj hc hd hct hlt
    obtain ⟨pre, r, rfl, rfl⟩ := split_at hc
    obtain ⟨c', h1, h2, h3⟩ := hi
    rw [hc] at h1; cases h1
    rw [start_mid] at h3
    simp only [hct, Bool.false_eq_true, if_false, Int.sub_zero] at h3
    have := (after_segment hw hct h3 hn).2 j d hd hlt
    obtain ⟨d', g1, g2, _⟩ := hj
    omega
  rcases Nat.lt_trichotomy i j with h | h | h
  · exact (main i j c d hi hj hc hd hct h).elim
  · exact h
  · exact (main j i d c hj hi hd hc hdt h).elim

/-- The component that is there is found. -/
theorem found {l : List Comp} {t : Int} {i : Nat} {c : Comp} (hw : Wf l) (hcut : NoCut l t) (hi : Covers l i t) (hc : l[i]? = some c) (hct : c.trans = false)
    (hn : ∀ j d, l[j]? = some d → d.trans = true → ¬ Covers l j t) : indexAtTime l t = some i := by
  obtain ⟨c', h1, h2, h3⟩ := id hi
  rw [hc] at h1; cases h1
  by_cases ht : t ≤ 0
  · have hz : start l i ≥ 0 := by
      have := wf_mono (i := 0) (a := 0) (wf_of l [] hw) (by simp [lastSeg]) (i, start l i, c) (List.mem_of_getElem? (i := i) (by
        have := C38_positions l i
        rw [positions, hc, Option.map_some] at this
        exact this))
      simpa [lastSeg] using this
    have ht0 : t = 0 := by omega
    subst ht0
    cases l with
    | nil => simp at hc
    | cons a r =>
      have ha := hw.first a rfl
      have hs0 : start (a :: r) 0 = 0 := by simp [start, total, ha]
      have hal : 0 ≤ a.len := hw.len a (by simp)
      have hpos : 0 < a.len ∨ i = 0 := by
        by_cases h0 : 0 < a.len
        · exact .inl h0
        · right
          cases i with
          | zero => rfl
          | succ k =>
            cases r with
            | nil => simp at hc
            | cons b r =>
              by_cases hb : b.trans = true
              · have := hw.prev 0 a b rfl rfl hb
                have := hw.pos b (by simp) hb
                omega
              · refine (hcut 0 a b rfl rfl ha (by simpa using hb) ?_).elim
                simp [start, total, advance, ha, hb]; omega
      rw [C38_start _ _ (by omega)]
      rcases hpos with h | h
      · exact congrArg some (cover_unique hw ⟨a, rfl, by omega, by omega⟩ hi rfl hc ha hct hn)
      · rw [h]
  · obtain ⟨pre, r, rfl, rfl⟩ := split_at hc
    have h3' := h3
    rw [start_mid] at h3'
    simp only [hct, Bool.false_eq_true, if_false, Int.sub_zero] at h3'
    obtain ⟨j, q1, q2, q3⟩ := C38_index_partial hw (by omega) (after_segment hw hct h3' hn).1 hcut
    obtain ⟨d, g1, g2⟩ := id q2
    have hd : d.trans = false := by
      cases hd : d.trans with
      | false => rfl
      | true => exact (hn j d g1 hd q2).elim
    rw [q1, cover_unique hw q2 hi g1 hc hd hct hn]

/-! ## The slot -/

theorem find_unique {α : Type} {f : α → Nat} : ∀ {l : List α} {x : α}, (l.map f).Nodup → x ∈ l → l.find? (fun y => f y = f x) = some x
  | [], _, _, h => by cases h
  | y :: l, x, hn, h => by
    rw [List.map_cons, List.nodup_cons] at hn
    by_cases hy : f y = f x
    · rcases List.mem_cons.1 h with rfl | h
      · simp
      · exact (hn.1 (hy ▸ List.mem_map.2 ⟨x, h, rfl⟩)).elim
    · rcases List.mem_cons.1 h with rfl | h
      · exact (hy rfl).elim
      · rw [List.find?_cons_of_neg (by simpa using hy)]
        exact find_unique hn.2 h

theorem slotOf_track {W : World} (hW : Unique W) {p : Place} {s : Slot} (h : Track W p s) (c : Clip) (hm : c.mob = p.mob) (hs : c.slot = p.slot) : slotOf W c = .ok (some s) := by
  obtain ⟨h0, l, h1, h2, h3⟩ := h
  have e1 : mobOf W c.mob = some l := by
    have := find_unique (f := fun e : Nat × List Slot => e.1) hW.mobs h1
    simp only at this
    simp only [mobOf, hm, if_neg h0, this, Option.map_some]
  have e2 : slotAt l c.slot = .ok s := by
    have := find_unique (f := Slot.id) (hW.slots _ h1) h2
    rw [h3] at this
    simp only [slotAt, hs, this]
  simp only [slotOf, e1, e2]

theorem slotOf_nowhere {W : World} {p : Place} (h : p.mob = 0 ∨ ∀ l, (p.mob, l) ∉ W) (c : Clip) (hm : c.mob = p.mob) : slotOf W c = .ok none := by
  have : mobOf W c.mob = none := by
    rw [mobOf, hm]
    split
    · rfl
    · rename_i h0
      rcases h with h | h
      · exact (h0 h).elim
      · rw [Option.map_eq_none_iff, List.find?_eq_none]
        rintro ⟨m, l⟩ hm' he
        simp only [decide_eq_true_eq] at he
        subst he
        exact h l hm'
  simp only [slotOf, this]

theorem componentAt_part {comps : List Obj} {i : Nat} {o : Obj} {t : Int} (hw : Wf (comps.map Obj.comp)) (hcut : NoCut (comps.map Obj.comp) t) (ho : comps[i]? = some o) (ht : o.kind ≠ .trans)
    (hi : Covers (comps.map Obj.comp) i t) (hn : ∀ j o', comps[j]? = some o' → o'.kind = .trans → ¬ Covers (comps.map Obj.comp) j t) : componentAt comps t = .ok o := by
  have h1 : (comps.map Obj.comp)[i]? = some o.comp := by rw [List.getElem?_map, ho]; rfl
  have := found hw hcut hi h1 (by simp [Obj.comp, ht]) (by
    intro j d hj hd
    rw [List.getElem?_map] at hj
    cases h : comps[j]? with
    | none => rw [h] at hj; cases hj
    | some o' =>
      rw [h] at hj
      cases hj
      exact hn j o' h (by simpa [Obj.comp] using hd))
  simp only [componentAt, this, ho]

theorem simple_source {W : World} {p : Place} {o : Obj} {t : Int} {c : Clip} (h : Simple W p) (hs : Shows W p o t) (hk : o.kind = .clip c) : Simple W (source c t) where
  seq q s comps hq := h.seq q s comps (.step p o t c q hs hk hq)
  inner q s comps o' t' hq := h.inner q s comps o' t' (.step p o t c q hs hk hq)
  known q s o' hq := h.known q s o' (.step p o t c q hs hk hq)
  after q o' t' c' r s comps hq := h.after q o' t' c' r s comps (.step p o t c q hs hk hq)

theorem walk_leads {W : World} (hW : Unique W) {p : Place} {l : List Obj} (h : Leads W p l) : ∀ (c : Clip), c.mob = p.mob → c.slot = p.slot → Simple W p →
    (c.start = p.time ∨ ∀ r s comps, Reach W p r → Track W r s → s.segment ≠ .sequence comps) → ∀ n, l.length < n → walk W n c = (l, .done) := by
  induction h with
  | nowhere p h =>
    intro c hm hs _ _ n hn
    obtain ⟨n, rfl⟩ : ∃ k, n = k + 1 := ⟨n - 1, by simp at hn; omega⟩
    simp only [walk, slotOf_nowhere h c hm]
  | stop p o t h hk =>
    intro c hm hs hS htime n hn
    obtain ⟨n, rfl⟩ : ∃ k, n = k + 1 := ⟨n - 1, by omega⟩
    have h' := h
    cases h with
    | one s _ ht ho =>
      have hkn := hS.known p s o (.refl p) ht ho
      simp only [walk, slotOf_track hW ht c hm hs, ho]
      cases hk' : o.kind with
      | clip c => exact (hk c hk').elim
      | trans => exact (hkn.1 hk').elim
      | other => exact (hkn.2 hk').elim
      | filler => rfl
      | group => rfl
      | operation => rfl
      | pulldown => rfl
    | part s comps i _ ht hc _ _ _ _ =>
      obtain ⟨c', h1⟩ := hS.inner p s comps o _ (.refl p) ht hc h'
      exact (hk c' h1).elim
  | go p o t c' l h hk hl ih =>
    intro c hm hs hS htime n hn
    obtain ⟨n, rfl⟩ : ∃ k, n = k + 1 := ⟨n - 1, by omega⟩
    have hrec := ih c' rfl rfl (simple_source hS h hk) (by
      by_cases h0 : t = 0
      · left; simp [Spec.Source.source, h0]
      · right
        intro r s comps hr hts
        exact hS.after p o t c' r s comps (.refl p) h hk h0 hr hts) n (by simp at hn; omega)
    have h' := h
    cases h with
    | one s _ ht ho =>
      simp only [walk, slotOf_track hW ht c hm hs, ho, hk, hrec]
    | part s comps i _ ht hc ho hnt hi hno =>
      have htm : c.start = p.time := by
        rcases htime with h | h
        · exact h
        · exact (h p s comps (.refl p) ht hc).elim
      obtain ⟨hw, hcut⟩ := hS.seq p s comps (.refl p) ht hc
      simp only [walk, slotOf_track hW ht c hm hs, hc, htm, componentAt_part hw hcut ho hnt hi hno, hk, hrec]

/-- The objects that a clip yields are those that the beginning of its source leads to. -/
theorem C57_walk_partial (W : World) (hW : Unique W) (c : Clip) (l : List Obj) (h : Leads W (source c 0) l) (hs : Simple W (source c 0)) (n : Nat) (hn : l.length < n) :
    walk W n c = (l, .done) :=
  walk_leads hW h c rfl rfl hs (.inl (by simp [Spec.Source.source])) n hn

/-- A clip of a slot that is made from `start` to the end, when it is followed, begins with what is there in the slot. -/
theorem C57_create_partial (W : World) (hW : Unique W) (m i : Nat) (slots : List Slot) (hmem : (m, slots) ∈ W) (s : Slot) (hs : s ∈ slots) (hi : s.id = i) (st : Option Int) :
    ∃ c, createSourceClip m slots i st none = .ok (c, max (s.length - st.getD 0) 0) ∧
      ∀ l, Leads W ⟨m, i, st.getD 0⟩ l → Simple W ⟨m, i, st.getD 0⟩ → ∀ n, l.length < n → walk W n c = (l, .done) := by
  have e2 : slotAt slots i = .ok s := by
    have := find_unique (f := Slot.id) (hW.slots _ hmem) hs
    rw [hi] at this
    simp only [slotAt, this]
  refine ⟨⟨m, i, st.getD 0⟩, by simp [createSourceClip, e2, hi], fun l hl hS n hn => C57_walk_partial W hW _ l (by simpa [Spec.Source.source] using hl) (by simpa [Spec.Source.source] using hS) n hn⟩

/-- The clip ends where the slot ends. -/
theorem C57_create_length (m i : Nat) (slots : List Slot) (s : Slot) (comps : List Obj) (hf : slots.find? (fun s => s.id = i) = some s) (hc : s.segment = .sequence comps) (st : Int)
    (h : st ≤ total (comps.map Obj.comp)) : ∃ c len, createSourceClip m slots i (some st) none = .ok (c, len) ∧ c.start + len = total (comps.map Obj.comp) := by
  refine ⟨_, _, by simp [createSourceClip, slotAt, hf]; exact ⟨rfl, rfl⟩, ?_⟩
  simp only [Slot.length, hc, C38_length]
  omega

/-! ## Ending -/

/-- If clips only refer to mobs of a lower rank, the walk ends. -/
theorem C57_ends (W : World) (rank : Nat → Nat) (hr : ∀ e ∈ W, ∀ s ∈ e.2, ∀ o c, (s.segment = .one o ∨ ∃ comps, s.segment = .sequence comps ∧ o ∈ comps) → o.kind = .clip c → rank c.mob < rank e.1)
    (n : Nat) : ∀ c : Clip, rank c.mob < n → (walk W n c).2 ≠ .more := by
  induction n with
  | zero => intro c h; omega
  | succ n ih =>
    intro c hc
    have next : ∀ s o c', slotOf W c = .ok (some s) → (s.segment = .one o ∨ ∃ comps, s.segment = .sequence comps ∧ o ∈ comps) → o.kind = .clip c' → (walk W n c').2 ≠ .more := by
      intro s o c' h1 h2 h3
      apply ih
      rw [slotOf] at h1
      split at h1
      · cases h1
      · rename_i l hl
        split at h1
        · cases h1
        · rename_i s' hs'
          cases h1
          rw [mobOf] at hl
          split at hl
          · cases hl
          · rw [Option.map_eq_some_iff] at hl
            obtain ⟨⟨m, l'⟩, g1, rfl⟩ := hl
            have hm := List.find?_some g1
            simp only [decide_eq_true_eq] at hm
            rw [slotAt] at hs'
            split at hs'
            · rename_i s'' hs''
              cases hs'
              have := hr _ (List.mem_of_find?_eq_some g1) s (List.mem_of_find?_eq_some hs'') o c' h2 h3
              simp only [hm] at this
              omega
            · cases hs'
    rw [walk]
    split
    · simp
    · simp
    · rename_i s hs
      split
      · rename_i o ho
        split
        · rename_i c' hk
          exact next s o c' hs (.inl ho) hk
        all_goals simp
      · rename_i comps hcs
        split
        · simp
        · rename_i o ho
          have hmem : o ∈ comps := by
            rw [componentAt] at ho
            split at ho
            · cases ho
            · split at ho
              · cases ho
              · rename_i h; cases ho; exact List.mem_of_getElem? h
          split
          · rename_i c' hk
            exact next s o c' hs (.inr ⟨comps, hcs, hmem⟩) hk
          · simp

/-- A slot whose clip refers to the slot: the walk does not end. -/
theorem C57_cycle_counterexample (n : Nat) : walk [(1, [⟨1, .one ⟨7, 10, .clip ⟨1, 1, 0⟩⟩⟩])] n ⟨1, 1, 0⟩ = (List.replicate n ⟨7, 10, .clip ⟨1, 1, 0⟩⟩, .more) := by
  induction n with
  | zero => rfl
  | succ n ih =>
    rw [walk]
    have : slotOf [(1, [⟨1, .one ⟨7, 10, .clip ⟨1, 1, 0⟩⟩⟩])] ⟨1, 1, 0⟩ = .ok (some ⟨1, .one ⟨7, 10, .clip ⟨1, 1, 0⟩⟩⟩) := by decide
    simp only [this, ih, List.replicate_succ]

/-! ## A film -/

/-- A composition of two clips with a transition, the master clip of the first one, its tape and a still. -/
def film : World := [(1, [⟨1, .sequence [⟨10, 50, .clip ⟨2, 1, 100⟩⟩, ⟨11, 10, .trans⟩, ⟨12, 60, .clip ⟨3, 2, 5⟩⟩, ⟨13, 8, .filler⟩]⟩]),
  (2, [⟨1, .one ⟨20, 400, .clip ⟨4, 1, 0⟩⟩⟩]), (3, [⟨2, .one ⟨30, 200, .clip ⟨0, 0, 0⟩⟩⟩]), (4, [⟨1, .one ⟨40, 900, .filler⟩⟩])]

theorem film_unique : Unique film := ⟨by decide, by decide⟩

theorem film_track {p : Place} {s : Slot} (h : Track film p s) : (p.mob = 1 ∧ s = ⟨1, .sequence [⟨10, 50, .clip ⟨2, 1, 100⟩⟩, ⟨11, 10, .trans⟩, ⟨12, 60, .clip ⟨3, 2, 5⟩⟩, ⟨13, 8, .filler⟩]⟩) ∨
    (p.mob = 2 ∧ s = ⟨1, .one ⟨20, 400, .clip ⟨4, 1, 0⟩⟩⟩) ∨ (p.mob = 3 ∧ s = ⟨2, .one ⟨30, 200, .clip ⟨0, 0, 0⟩⟩⟩) ∨ (p.mob = 4 ∧ s = ⟨1, .one ⟨40, 900, .filler⟩⟩) := by
  obtain ⟨_, l, h1, h2, _⟩ := h
  simp only [film, List.mem_cons, Prod.mk.injEq, List.not_mem_nil, or_false] at h1
  rcases h1 with ⟨h, rfl⟩ | ⟨h, rfl⟩ | ⟨h, rfl⟩ | ⟨h, rfl⟩ <;> simp only [List.mem_cons, List.not_mem_nil, or_false] at h2 <;> simp [h, h2]

/-- Away from the composition there are no sequences. -/
theorem film_flat {p q : Place} (h : Reach film p q) (hp : p.mob ≠ 1) : q.mob ≠ 1 := by
  induction h with
  | refl => exact hp
  | step p o t c q hs hk hq ih =>
    apply ih
    cases hs with
    | one s _ hs ho => rcases film_track hs with ⟨h, rfl⟩ | ⟨h, rfl⟩ | ⟨h, rfl⟩ | ⟨h, rfl⟩ <;> cases ho <;> cases hk <;> simp [Spec.Source.source]
    | part s comps i _ hs hc => rcases film_track hs with ⟨h, rfl⟩ | ⟨h, rfl⟩ | ⟨h, rfl⟩ | ⟨h, rfl⟩ <;> first | exact (hp h).elim | cases hc

theorem film_clips {c : Clip} {o : Obj} {comps : List Obj} {i : Nat} (hc : Segment.sequence [⟨10, 50, .clip ⟨2, 1, 100⟩⟩, ⟨11, 10, .trans⟩, ⟨12, 60, .clip ⟨3, 2, 5⟩⟩, ⟨13, 8, .filler⟩] = .sequence comps)
    (ho : comps[i]? = some o) (hk : o.kind = .clip c) : c.mob ≠ 1 := by
  cases hc
  match i, ho with
  | 0, ho | 1, ho | 2, ho | 3, ho => simp at ho; subst ho; cases hk <;> simp
  | n + 4, ho => simp at ho

theorem film_wf : Wf [⟨false, 50⟩, ⟨true, 10⟩, ⟨false, 60⟩, ⟨false, 8⟩] := by
  refine ⟨by decide, by decide, by simp, ?_⟩
  intro i c d h1 h2 h3
  match i, h1, h2 with
  | 0, h1, h2 => simp at h1 h2; subst h1 h2; decide
  | 1, h1, h2 => simp at h1 h2; subst h1 h2; cases h3
  | 2, h1, h2 => simp at h1 h2; subst h1 h2; cases h3
  | n + 3, h1, h2 => simp at h2

theorem film_nocut (t : Int) (h : t ≠ 100) : NoCut [⟨false, 50⟩, ⟨true, 10⟩, ⟨false, 60⟩, ⟨false, 8⟩] t := by
  intro i c d h1 h2 h3 h4
  match i, h1, h2 with
  | 0, h1, h2 => simp at h1 h2; subst h1 h2; cases h4
  | 1, h1, h2 => simp at h1 h2; subst h1 h2; cases h3
  | 2, h1, h2 => simp [start, total, advance]; omega
  | n + 3, h1, h2 => simp at h2

/-- The places in the composition before the filler are simple. -/
theorem film_simple (t : Int) (ht : t < 100) : Simple film ⟨1, 1, t⟩ := by
  have reach : ∀ q, Reach film ⟨1, 1, t⟩ q → q.mob = 1 → q = ⟨1, 1, t⟩ := by
    intro q hq hm
    cases hq with
    | refl => rfl
    | step _ o t' c _ hs hk hq =>
      refine (film_flat hq ?_ hm).elim
      cases hs with
      | one s _ hs ho => rcases film_track hs with ⟨h, rfl⟩ | ⟨h, rfl⟩ | ⟨h, rfl⟩ | ⟨h, rfl⟩ <;> first | (cases ho; done) | (cases h; done)
      | part s comps i _ hs hc ho =>
        rcases film_track hs with ⟨h, rfl⟩ | ⟨h, rfl⟩ | ⟨h, rfl⟩ | ⟨h, rfl⟩
        · exact film_clips hc ho hk
        all_goals cases h
  refine ⟨?_, ?_, ?_, ?_⟩
  · intro q s comps hq hs hc
    rcases film_track hs with ⟨h, rfl⟩ | ⟨h, rfl⟩ | ⟨h, rfl⟩ | ⟨h, rfl⟩ <;> cases hc
    have e := reach q hq h
    subst e
    exact ⟨film_wf, film_nocut t (by omega)⟩
  · intro q s comps o t' hq hs hc hsh
    rcases film_track hs with ⟨h, rfl⟩ | ⟨h, rfl⟩ | ⟨h, rfl⟩ | ⟨h, rfl⟩ <;> cases hc
    have e := reach q hq h
    subst e
    cases hsh with
    | one s _ hs ho => rcases film_track hs with ⟨h, rfl⟩ | ⟨h, rfl⟩ | ⟨h, rfl⟩ | ⟨h, rfl⟩ <;> first | (cases ho; done) | (cases h; done)
    | part s comps i _ hs hc ho htr hi =>
      rcases film_track hs with ⟨h, rfl⟩ | ⟨h, rfl⟩ | ⟨h, rfl⟩ | ⟨h, rfl⟩ <;> cases hc
      match i, ho with
      | 0, ho | 2, ho => simp at ho; subst ho; exact ⟨_, rfl⟩
      | 1, ho => simp at ho; subst ho; exact (htr rfl).elim
      | 3, ho =>
        obtain ⟨c, h1, h2, h3⟩ := hi
        simp [start, total, advance, Obj.comp] at h1 h2
        omega
      | n + 4, ho => simp at ho
  · intro q s o hq hs ho
    rcases film_track hs with ⟨h, rfl⟩ | ⟨h, rfl⟩ | ⟨h, rfl⟩ | ⟨h, rfl⟩ <;> cases ho <;> decide
  · intro q o t' c r s comps hq hsh hk h0 hr hs hc
    have hr1 : r.mob = 1 := by
      rcases film_track hs with ⟨h, rfl⟩ | ⟨h, rfl⟩ | ⟨h, rfl⟩ | ⟨h, rfl⟩ <;> first | exact h | cases hc
    refine film_flat hr ?_ hr1
    cases hsh with
    | one s _ hs ho => rcases film_track hs with ⟨h, rfl⟩ | ⟨h, rfl⟩ | ⟨h, rfl⟩ | ⟨h, rfl⟩ <;> cases ho <;> cases hk <;> simp [Spec.Source.source]
    | part s comps i _ hs hc ho =>
      rcases film_track hs with ⟨h, rfl⟩ | ⟨h, rfl⟩ | ⟨h, rfl⟩ | ⟨h, rfl⟩
      · exact film_clips hc ho hk
      all_goals cases hc

/-- At time 20 there is the first clip, its master clip and the tape. -/
theorem film_leads : Leads film ⟨1, 1, 20⟩ [⟨10, 50, .clip ⟨2, 1, 100⟩⟩, ⟨20, 400, .clip ⟨4, 1, 0⟩⟩, ⟨40, 900, .filler⟩] := by
  refine .go _ _ _ ⟨2, 1, 100⟩ _ (.part ⟨1, .sequence [⟨10, 50, .clip ⟨2, 1, 100⟩⟩, ⟨11, 10, .trans⟩, ⟨12, 60, .clip ⟨3, 2, 5⟩⟩, ⟨13, 8, .filler⟩]⟩ _ 0 _ ⟨by decide, _, .head _, .head _, rfl⟩ rfl rfl (by decide)
    ⟨_, rfl, by decide, by decide⟩ ?_) rfl ?_
  · intro j o ho hk
    match j, ho with
    | 0, ho | 2, ho | 3, ho => simp at ho; subst ho; cases hk
    | 1, ho =>
      rintro ⟨c, h1, h2, h3⟩
      simp [start, total, advance, Obj.comp] at h2
    | n + 4, ho => simp at ho
  · exact .go _ _ _ ⟨4, 1, 0⟩ _ (.one ⟨1, .one ⟨20, 400, .clip ⟨4, 1, 0⟩⟩⟩ _ ⟨by decide, _, .tail _ (.head _), .head _, rfl⟩ rfl) rfl
      (.stop _ _ _ (.one ⟨1, .one ⟨40, 900, .filler⟩⟩ _ ⟨by decide, _, .tail _ (.tail _ (.tail _ (.head _))), .head _, rfl⟩ rfl) (by intro c h; cases h))

/-- The film meets the conditions, and so the clip is followed well. -/
theorem C57_witness (n : Nat) : walk film (n + 4) ⟨1, 1, 20⟩ = ([⟨10, 50, .clip ⟨2, 1, 100⟩⟩, ⟨20, 400, .clip ⟨4, 1, 0⟩⟩, ⟨40, 900, .filler⟩], .done) :=
  C57_walk_partial film film_unique ⟨1, 1, 20⟩ _ film_leads (film_simple 20 (by decide)) (n + 4) (by simp)

/-- The film has no circles. -/
theorem C57_ends_witness (c : Clip) (n : Nat) (h : 5 < n) : (walk film n c).2 ≠ .more := by
  refine C57_ends film (fun m => if m = 0 then 0 else 4 - m + 1) ?_ n c (by split <;> omega)
  intro e he s hs o c ho hk
  simp only [film, List.mem_cons, List.not_mem_nil, or_false] at he
  rcases he with rfl | rfl | rfl | rfl <;> simp only [List.mem_cons, List.not_mem_nil, or_false] at hs <;> subst hs <;> rcases ho with ho | ⟨comps, hc, ho⟩ <;>
    first
    | (cases ho; cases hk; decide)
    | (cases hc; simp only [List.mem_cons, List.not_mem_nil, or_false] at ho; rcases ho with rfl | rfl | rfl | rfl <;> cases hk <;> decide)
    | (cases ho; cases hk; done)
    | (cases ho; done)
    | (cases hc; done)

/-! ## Where it fails -/

/-- At a time in a filler of a sequence the call raises; the filler of a slot is yielded. -/
theorem C57_filler_counterexample : walk film 9 ⟨1, 1, 104⟩ = ([], .raised .notImplemented) ∧ walk film 9 ⟨4, 1, 7⟩ = ([⟨40, 900, .filler⟩], .done) := by decide

/-- A slot that the mob does not have. -/
theorem C57_slot_counterexample : walk film 9 ⟨1, 5, 0⟩ = ([], .raised .indexError) := by decide

/-- Two reels of an edited master. -/
def reels : World := [(1, [⟨1, .sequence [⟨10, 50, .clip ⟨2, 1, 0⟩⟩]⟩]), (2, [⟨1, .sequence [⟨20, 30, .clip ⟨0, 0, 0⟩⟩, ⟨21, 30, .clip ⟨0, 0, 0⟩⟩]⟩])]

/-- The time inside a clip is forgotten: 40 frames after the start there is the second reel, but the first one is yielded. -/
theorem C57_offset_counterexample : Leads reels ⟨1, 1, 40⟩ [⟨10, 50, .clip ⟨2, 1, 0⟩⟩, ⟨21, 30, .clip ⟨0, 0, 0⟩⟩] ∧
    walk reels 9 ⟨1, 1, 40⟩ = ([⟨10, 50, .clip ⟨2, 1, 0⟩⟩, ⟨20, 30, .clip ⟨0, 0, 0⟩⟩], .done) := by
  refine ⟨?_, by decide⟩
  refine .go _ _ _ ⟨2, 1, 0⟩ _ (.part ⟨1, .sequence [⟨10, 50, .clip ⟨2, 1, 0⟩⟩]⟩ _ 0 _ ⟨by decide, _, .head _, .head _, rfl⟩ rfl rfl (by decide) ⟨_, rfl, by decide, by decide⟩ ?_) rfl
    (.go _ _ _ ⟨0, 0, 0⟩ _ (.part ⟨1, .sequence [⟨20, 30, .clip ⟨0, 0, 0⟩⟩, ⟨21, 30, .clip ⟨0, 0, 0⟩⟩]⟩ _ 1 _ ⟨by decide, _, .tail _ (.head _), .head _, rfl⟩ rfl rfl (by decide) ⟨_, rfl, by decide, by decide⟩ ?_) rfl
      (.nowhere _ (.inl rfl)))
  · intro j o ho hk
    match j, ho with
    | 0, ho => simp at ho; subst ho; cases hk
    | n + 1, ho => simp at ho
  · intro j o ho hk
    match j, ho with
    | 0, ho | 1, ho => simp at ho; subst ho; cases hk
    | n + 2, ho => simp at ho

/-- A length of 0 is taken as no length. -/
theorem C57_zero_counterexample : createSourceClip 4 [⟨1, .one ⟨40, 900, .filler⟩⟩] 1 (some 5) (some 0) = .ok (⟨4, 1, 5⟩, 895) := by decide

/-- A track with one segment of another class raises; nothing is yielded for it. -/
theorem C57_other (W : World) (hW : Unique W) (c : Clip) (s : Slot) (h : Track W (source c 0) s) (o : Obj) (ho : s.segment = .one o) (hk : o.kind = .other ∨ o.kind = .trans) (n : Nat) :
    walk W (n + 1) c = ([], .raised .notImplemented) := by
  have hs := slotOf_track hW h c rfl rfl
  rcases hk with hk | hk <;> simp only [walk, hs, ho, hk]

end Verif.Walk
