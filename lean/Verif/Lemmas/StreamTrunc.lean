import Verif.Lemmas.StreamSpec
/-!
# Truncation, directory writes, the empty file
-/
namespace Verif.Fat
open Verif.Chain

theorem take_getLast {c : List Nat} {k : Nat} (h0 : 0 < k) (hk : k ≤ c.length) :
    (c.take k).getLast? = c[k - 1]? := by
  rw [List.getLast?_eq_getElem?, List.getElem?_take]
  simp only [List.length_take]
  rw [Nat.min_eq_left hk, if_pos (by omega)]

theorem sectors_pos {size sz : Nat} (h : 0 < size) (hz : 0 < sz) : 0 < sectors size sz := by
  have := le_sectors size sz hz
  rcases Nat.eq_zero_or_pos (sectors size sz) with h1 | h1
  · rw [h1] at this; omega
  · exact h1

/-- The cut of the chain in `truncate`, both tables. -/
theorem truncCut {s : Fs} {ch : Own → List Nat} {chm : Nat → List Nat} {h : Handle}
    (i : SInv s ch chm) (hh : HOk s ch chm h) (count : Nat) (h0 : 0 < count)
    (hl : h.chain.length > count) :
    ∃ s' ch' chm', (do
        let last ← idx h.chain (count - 1)
        let first ← idx h.chain count
        let s ← freeFatChain s (some first) (isMini s h.id)
        let s ← if isMini s h.id then do
            let t ← setAt s.minifat last ENDOFCHAIN
            .ok { s with minifat := t }
          else do
            let t ← setAt s.fat last ENDOFCHAIN
            .ok { s with fat := t }
        .ok (s, { h with chain := h.chain.take count }) : Res (Fs × Handle)) =
      .ok (s', { h with chain := h.chain.take count }) ∧
      FInv s' ch' chm' [] ∧ Keep s s' ∧
      (∀ j, j ≠ h.id → ch' (.str j) = ch (.str j)) ∧ (∀ j, j ≠ h.id → chm' j = chm j) ∧
      (if isMini s h.id then chm' h.id else ch' (.str h.id)) = h.chain.take count ∧
      (if isMini s h.id then ch' (.str h.id) else chm' h.id) = [] := by
  have ho := i.ents h.id trivial
  have hch := hh.chain
  obtain ⟨last, hlast⟩ : ∃ x, h.chain[count - 1]? = some x :=
    ⟨_, List.getElem?_eq_getElem (by omega)⟩
  obtain ⟨first, hfirst⟩ : ∃ x, h.chain[count]? = some x := ⟨_, List.getElem?_eq_getElem (by omega)⟩
  have hgl : (h.chain.take count).getLast? = some last := by rw [take_getLast h0 (by omega), hlast]
  have hhd : (h.chain.drop count).head? = some first := by rw [List.head?_drop, hfirst]
  rw [idx_ok hlast, idx_ok hfirst]
  simp only [bind, Except.bind]
  by_cases hm : (s.ent h.id).size < MINMAX
  · have hmi : isMini s h.id = true := by simp [isMini, hm]
    simp only [chainOf, hm, if_true] at hch
    obtain ⟨s1, e1, h2, h3, h4, h5, h6, h7⟩ := cut_mini_spec i.fi h.id (h.chain.take count)
      (h.chain.drop count) (by rw [← hch]; simp)
    rw [hhd] at e1
    rw [hgl] at h5 h6 h7
    rw [hmi, e1]
    have hent : s1.ent = s.ent := h6.ent
    have hmi1 : isMini s1 h.id = true := by simp [isMini, hent, hm]
    simp only [hmi1, if_true]
    rw [setAt_ok (by rw [h3]; exact h4 last hgl)]
    exact ⟨_, ch, _, rfl, h5, h6, fun j _ => rfl, fun j hj => updC_ne _ _ hj, by simp, ho.mini hm⟩
  · have hmi : isMini s h.id = false := by simp [isMini, hm]
    simp only [chainOf, hm, if_false] at hch
    obtain ⟨s1, e1, h2, h3, h4, h5, h6, h7⟩ := cut_str_spec i.fi h.id (h.chain.take count)
      (h.chain.drop count) (by rw [← hch]; simp)
    rw [hhd] at e1
    rw [hgl] at h5 h6 h7
    rw [hmi, e1]
    have hent : s1.ent = s.ent := h6.ent
    have hmi1 : isMini s1 h.id = false := by simp [isMini, hent, hm]
    simp only [hmi1, Bool.false_eq_true, if_false]
    rw [setAt_ok (by rw [h3]; exact h4 last hgl)]
    exact ⟨_, _, chm, rfl, h5, h6, fun j hj => updC_ne _ _ (by simpa using hj), fun j _ => rfl,
      by simp, ho.big hm⟩

/-- The entry gets a smaller size. -/
theorem shrink_after {s s1 : Fs} {ch ch1 : Own → List Nat} {chm chm1 : Nat → List Nat} {h : Handle}
    {c : List Nat} {size : Nat} (i : SInv s ch chm) (hh : HOk s ch chm h)
    (hf : FInv s1 ch1 chm1 []) (hk : Keep s s1)
    (h1 : ∀ j, j ≠ h.id → ch1 (.str j) = ch (.str j)) (h2 : ∀ j, j ≠ h.id → chm1 j = chm j)
    (h3 : (if isMini s h.id then chm1 h.id else ch1 (.str h.id)) = c)
    (h4 : (if isMini s h.id then ch1 (.str h.id) else chm1 h.id) = [])
    (hc : ∃ k, c = h.chain.take k) (hc0 : c.head? = h.chain.head?)
    (hsz : size ≤ (s.ent h.id).size) (hfit : size ≤ c.length * unit s h.id)
    (hmode : size < MINMAX ↔ (s.ent h.id).size < MINMAX) :
    After s ch chm h (setEnt s1 h.id { s1.ent h.id with size := size },
      { h with pos := min h.pos size, chain := c }) ((cont s ch chm h.id).take size) (min h.pos size) := by
  obtain ⟨g0, _, _⟩ := i.fi.ss
  obtain ⟨p, fr⟩ := freed (e := { s1.ent h.id with size := size }) i hf hk h1 h2
  have ho := i.ents h.id trivial
  have hmi : isMini (setEnt s1 h.id { s1.ent h.id with size := size }) h.id = isMini s h.id := by
    simp only [isMini, setEnt, if_true]; exact decide_eq_decide.mpr hmode
  have hun : unit (setEnt s1 h.id { s1.ent h.id with size := size }) h.id = unit s h.id := by
    simp only [unit, setEnt, if_true, hk.ss]
    by_cases hm : (s.ent h.id).size < MINMAX
    · rw [if_pos hm, if_pos (hmode.mpr hm)]
    · rw [if_neg hm, if_neg (fun h => hm (hmode.mp h))]
  have g : Grow (setEnt s1 h.id { s1.ent h.id with size := size }) ch1 chm1 h.id (isMini s h.id) c := by
    refine ⟨p, h3.symm, h4, ?_⟩
    simp only [setEnt, if_true, hk.ent]
    rw [hc0, hh.chain]; exact ho.start
  obtain ⟨i', hc'⟩ := g.finish hmi.symm (by rw [hun]; simpa [setEnt] using hfit)
  refine ⟨ch1, chm1, i', ⟨hc'.symm, ?_⟩, rfl, rfl, ?_, fr⟩
  · simp only [setEnt, if_true]; omega
  · show rd s1.f _ 0 ((setEnt s1 h.id { s1.ent h.id with size := size }).ent h.id).size = _
    have e : ((setEnt s1 h.id { s1.ent h.id with size := size }).ent h.id).size = size := by simp [setEnt]
    rw [e]
    have : (cont s ch chm h.id).take size = rd s.f (loc s ch chm h.id) 0 size := by
      have := rd_slice s.f (loc s ch chm h.id) (s.ent h.id).size 0 size (by omega)
      rw [this]; simp [slice, cont]
    rw [this]
    apply rd_congr
    intro q _ hq
    rw [hk.f]
    congr 1
    obtain ⟨k, hck⟩ := hc
    obtain ⟨l, hl⟩ := hk.mini
    have hcl : c.length ≤ k := by rw [hck]; simp; omega
    have hch := hh.chain
    simp only [isMini, decide_eq_true_eq] at h3
    simp only [chainOf] at hch
    by_cases hm : (s.ent h.id).size < MINMAX
    · simp only [loc, setEnt, if_true]
      rw [if_pos (hmode.mpr hm), if_pos hm]
      rw [if_pos hm] at h3 hch
      simp only [unit, if_pos hm] at hfit
      rw [h3, hck, hch, addrM_take (by omega)]
      rw [hl, hk.ss]
      have := addrM_append (k := []) (l := l) g0 i.fi.ss.2.1 (i.fi.used h.id) (p := q) (by
        have : c.length ≤ (chm h.id).length := by rw [hck, hch]; simp; omega
        omega)
      simpa using this
    · simp only [loc, setEnt, if_true]
      rw [if_neg (fun h => hm (hmode.mp h)), if_neg hm]
      rw [if_neg hm] at h3 hch
      simp only [unit, if_neg hm] at hfit
      rw [h3, hck, hch, hk.ss, addr_take g0]
      exact Nat.lt_of_lt_of_le (by omega) (Nat.mul_le_mul_right s.ss hcl)

/-- **Truncate** to nothing. -/
theorem truncate_zero {s : Fs} {ch : Own → List Nat} {chm : Nat → List Nat} {h : Handle}
    (i : SInv s ch chm) : ∃ p, truncate s h 0 = .ok p ∧ After s ch chm h p [] 0 := by
  obtain ⟨s', e, ch', chm', i', he, h1, h2, fr⟩ := dropStream_spec i h.id
  refine ⟨(s', { h with pos := 0, chain := [] }), ?_, ch', chm', i', ⟨?_, by simp⟩, rfl, rfl, ?_, fr⟩
  · simp only [truncate, if_true]
    simp only [dropStream, bind, Except.bind] at e ⊢
    cases hf : freeFatChain s (s.ent h.id).start (isMini s h.id) with
    | error x => rw [hf] at e; cases e
    | ok s1 => rw [hf] at e; simp only [Except.ok.injEq] at e ⊢; rw [e]
  · simp only [chainOf, he, MINMAX]; rw [if_pos (by omega), h2]
  · simp [cont, he]

/-- **Truncate**, growing. -/
theorem truncate_grow {s : Fs} {ch : Own → List Nat} {chm : Nat → List Nat} {h : Handle}
    (i : SInv s ch chm) (hh : HOk s ch chm h) (size : Nat) (hn : (s.ent h.id).size < size) :
    Good (truncate s h size) fun p => ∃ junk, junk.length = size - (s.ent h.id).size ∧
      After s ch chm h p (cont s ch chm h.id ++ junk) h.pos := by
  simp only [truncate]
  rw [if_neg (by omega), if_pos hn]
  exact allocate_spec i hh size hn

/-- **Truncate**, shrinking. -/
theorem truncate_shrink {s : Fs} {ch : Own → List Nat} {chm : Nat → List Nat} {h : Handle}
    (i : SInv s ch chm) (hh : HOk s ch chm h) (size : Nat) (h0 : 0 < size)
    (hn : size ≤ (s.ent h.id).size) :
    Good (truncate s h size) fun p =>
      After s ch chm h p ((cont s ch chm h.id).take size) (min h.pos size) := by
  have ho := i.ents h.id trivial
  obtain ⟨g0, _, _⟩ := i.fi.ss
  simp only [truncate]
  rw [if_neg (by omega), if_neg (by omega)]
  by_cases hcv : size < MINMAX ∧ isMini s h.id = false
  · rw [if_pos hcv]
    obtain ⟨hsm, hmi⟩ := hcv
    obtain ⟨c1, e1, hc1⟩ := read_spec (h := { h with pos := 0 }) i trivial
      ⟨hh.chain, by simp⟩ (size : Int)
    have hl : readLen (s.ent h.id).size 0 (size : Int) = size := by
      simp only [readLen]; rw [if_neg (by omega)]; omega
    simp only [hl, Nat.zero_add] at e1
    have hsl : slice (cont s ch chm h.id) 0 size = (cont s ch chm h.id).take size := by simp [slice]
    rw [hsl] at e1
    rw [e1]
    simp only [bind, Except.bind]
    obtain ⟨i1, fr1⟩ := i.withCache hc1
    obtain ⟨s2, e2, ch2, chm2, i2, he2, hz1, hz2, fr2⟩ := dropStream_spec i1 h.id
    have hmi1 : isMini { s with cache := c1 } h.id = false := hmi
    simp only [dropStream, bind, Except.bind, hmi1] at e2
    cases hf : freeFatChain { s with cache := c1 } (s.ent h.id).start false with
    | error x => rw [hf] at e2; cases e2
    | ok s1 =>
      rw [hf] at e2
      simp only [Except.ok.injEq] at e2
      simp only [e2]
      have hh2 : HOk s2 ch2 chm2 { h with pos := 0, chain := [] } :=
        ⟨by simp only [chainOf, he2, MINMAX]; rw [if_pos (by omega), hz2], by simp⟩
      have hw := write_spec i2 hh2 ((cont s ch chm h.id).take size)
      have := Good.bind hw (k := fun q => if (q.1.ent q.2.id).size = size then
          Except.ok (q.1, { q.2 with pos := min h.pos size }) else .error .assertion)
        (Q := fun p => After s ch chm h p ((cont s ch chm h.id).take size) (min h.pos size)) ?_
      · exact this
      · rintro ⟨s3, h3⟩ a
        have hsz := a.size
        have hc0 : cont s2 ch2 chm2 h.id = [] := by simp [cont, he2]
        simp only [hc0, overwrite, List.take_nil, List.drop_nil, List.nil_append, List.append_nil,
          List.length_take, cont_length] at hsz a
        obtain ⟨ch3, chm3, i3, hh3, hid3, hpos3, hcont3, fr3⟩ := a
        simp only at hid3 hh3 i3 hcont3 fr3 hsz
        have hsz' : (s3.ent h.id).size = size := by rw [hsz]; omega
        simp only [hid3, hsz', if_true]
        refine Good.ok ⟨ch3, chm3, i3, ⟨?_, ?_⟩, rfl, rfl, hcont3, ?_⟩
        · have := hh3.chain; rw [hid3] at this; exact this
        · simp only [hsz']; omega
        · exact ((fr1.weaken fun _ _ => trivial).trans fr2).trans fr3
  · rw [if_neg hcv]
    have hmode : size < MINMAX ↔ (s.ent h.id).size < MINMAX := by
      simp only [isMini, decide_eq_false_iff_not] at hcv; omega
    have hun : unit s h.id = if isMini s h.id then 64 else s.ss := by simp [unit, isMini]
    rw [← hun]
    have hu0 : 0 < unit s h.id := by simp only [unit]; split <;> omega
    have hfit := ho.fits
    have hch := hh.chain
    by_cases hgt : h.chain.length > sectors size (unit s h.id)
    · rw [if_pos hgt]
      obtain ⟨s1, ch1, chm1, e, hf, hk, h1, h2, h3, h4⟩ := truncCut i hh _ (sectors_pos h0 hu0) hgt
      have hp := sectors_pos h0 hu0
      have key := shrink_after (size := size) i hh hf hk h1 h2 h3 h4 ⟨_, rfl⟩ (by
          cases hcc : h.chain with
          | nil => rw [hcc] at hgt; simp at hgt
          | cons a t =>
            obtain ⟨n, hn⟩ : ∃ n, sectors size (unit s h.id) = n + 1 := ⟨_, (Nat.succ_pred_eq_of_pos hp).symm⟩
            rw [hn]; simp)
        hn (by
          rw [List.length_take, Nat.min_eq_left (by omega)]; exact le_sectors _ _ hu0) hmode
      have hmi1 : ∀ s2 : Fs, freeFatChain s (some (h.chain.getD (sectors size (unit s h.id)) 0)) (isMini s h.id) = .ok s2 →
          isMini s2 h.id = isMini s h.id := by
        intro s2 hs2
        simp only [isMini]
        have : s2.ent = s.ent := by
          simp only [freeFatChain] at hs2
          split at hs2
          · cases hg : getFatChain s.minifat (some (h.chain.getD (sectors size (unit s h.id)) 0)) with
            | error x => rw [hg] at hs2; cases hs2
            | ok l => rw [hg] at hs2; simp only [bind, Except.bind, Except.ok.injEq] at hs2; rw [← hs2]
          · cases hg : getFatChain s.fat (some (h.chain.getD (sectors size (unit s h.id)) 0)) with
            | error x => rw [hg] at hs2; cases hs2
            | ok l => rw [hg] at hs2; simp only [bind, Except.bind, Except.ok.injEq] at hs2; rw [← hs2]
        rw [this]
      right
      refine ⟨_, ?_, key⟩
      obtain ⟨first, hfirst⟩ : ∃ x, h.chain[sectors size (unit s h.id)]? = some x :=
        ⟨_, List.getElem?_eq_getElem (by omega)⟩
      have hgd : h.chain.getD (sectors size (unit s h.id)) 0 = first := by simp [List.getD, hfirst]
      rw [hgd] at hmi1
      obtain ⟨last, hlast⟩ : ∃ x, h.chain[sectors size (unit s h.id) - 1]? = some x :=
        ⟨_, List.getElem?_eq_getElem (by omega)⟩
      rw [idx_ok hlast, idx_ok hfirst] at e ⊢
      simp only [bind, Except.bind] at e ⊢
      cases hfr : freeFatChain s (some first) (isMini s h.id) with
      | error x => rw [hfr] at e; cases e
      | ok s2 =>
        rw [hfr] at e
        simp only [hmi1 s2 hfr] at e ⊢
        revert e
        cases isMini s h.id with
        | true =>
          simp only [if_true]
          cases setAt s2.minifat last ENDOFCHAIN with
          | error x => intro e; cases e
          | ok t => simp only [Except.ok.injEq, Prod.mk.injEq, and_true]; rintro rfl; rfl
        | false =>
          simp only [Bool.false_eq_true, if_false]
          cases setAt s2.fat last ENDOFCHAIN with
          | error x => intro e; cases e
          | ok t => simp only [Except.ok.injEq, Prod.mk.injEq, and_true]; rintro rfl; rfl
    · rw [if_neg hgt]
      simp only [bind, Except.bind]
      apply Good.ok
      have := shrink_after (s1 := s) (c := h.chain) (size := size) i hh i.fi (Keep.refl s)
        (fun _ _ => rfl) (fun _ _ => rfl)
        (by rw [hch]; simp only [isMini, decide_eq_true_eq, chainOf])
        (by
          by_cases hm : (s.ent h.id).size < MINMAX
          · simp [isMini, hm, ho.mini hm]
          · simp [isMini, hm, ho.big hm])
        ⟨h.chain.length, by simp⟩ rfl hn (by rw [hch]; omega) hmode
      exact this

/-! ## Directory -/

/-- Growing the directory does not concern the streams. -/
theorem growDir_after {s : Fs} {ch : Own → List Nat} {chm : Nat → List Nat} (i : SInv s ch chm) :
    Good (growDir s) fun s' => ∃ ch', SInv s' ch' chm ∧ (∃ x, s'.dirChain = s.dirChain ++ [x]) ∧
      s'.f = s.f ∧ s'.rootStart = s.rootStart ∧ FrameS s ch chm s' ch' chm fun _ => True := by
  apply (growDir_spec i.fi).mono
  rintro s' ⟨x, e, hf, k1, k2, k3, k4, k5, k6⟩
  have hch : ∀ j, updC ch .dir (ch .dir ++ [x]) (.str j) = ch (.str j) := fun j => updC_ne _ _ (by simp)
  refine ⟨_, ⟨hf, ?_, ?_⟩, ⟨x, e⟩, k1, k6, ?_⟩
  · have := i.coh
    unfold Coh at this ⊢
    rw [k1, k2, k3]; exact this
  · intro j _; exact (i.ents j trivial).congr k2 (by rw [k4]) (hch j) rfl
  · exact FrameS.of_same i k1 k2 ⟨[], by rw [k5]; simp⟩ (fun j _ => by rw [k4]) (fun j _ => hch j) (fun _ _ => rfl)

/-- Writing a sector of the directory does not concern the streams. -/
theorem poke_dir {s : Fs} {ch : Own → List Nat} {chm : Nat → List Nat} (i : SInv s ch chm)
    {sid off : Nat} {d : Bytes} (hs : sid ∈ s.dirChain) (hd : off + d.length ≤ s.ss)
    (c : Lru.Cache Nat Bytes)
    (hc : Coh { s with cache := c, f := pwrite s.f ((sid + 1) * s.ss + off) d }) :
    SInv { s with cache := c, f := pwrite s.f ((sid + 1) * s.ss + off) d } ch chm ∧
      FrameS s ch chm { s with cache := c, f := pwrite s.f ((sid + 1) * s.ss + off) d } ch chm fun _ => True := by
  obtain ⟨g0, g1, _⟩ := i.fi.ss
  refine ⟨⟨i.fi.withIO _ c s.ent, hc, fun j _ => (i.ents j trivial).congr rfl rfl rfl rfl⟩,
    rfl, ⟨[], by simp⟩, fun _ _ => rfl, fun _ _ => rfl, fun _ _ => rfl, ?_⟩
  intro j _
  simp only [cont]
  apply rd_congr
  intro q _ hq
  show byteAt _ (loc s ch chm j q) = _
  simp only [byteAt_pwrite]
  rw [if_neg]
  intro h
  have hfit := (i.ents j trivial).fits
  -- the offset written is that of byte `t` of the chain `[sid]`
  have ht : ∃ t, t < 1 * s.ss ∧ addr s.ss [sid] t = loc s ch chm j q := by
    refine ⟨loc s ch chm j q - (sid + 1) * s.ss, by omega, ?_⟩
    simp only [addr]
    rw [Nat.div_eq_of_lt (by omega), Nat.mod_eq_of_lt (by omega)]
    simp; omega
  obtain ⟨t, ht1, ht2⟩ := ht
  have hdir : ∀ j x, x ∈ ch (.str j) → x ∈ [sid] → False := by
    intro j x h1 h2
    simp at h2; subst h2
    exact i.fi.disj (o := .str j) (o' := .dir) (by simp) x h1 (by rw [i.fi.dir.1]; exact hs)
  have hmini : ∀ x, x ∈ s.miniChain → x ∈ [sid] → False := by
    intro x h1 h2
    simp at h2; subst h2
    exact i.fi.disj (o := .mini) (o' := .dir) (by simp) x (by rw [i.fi.mini.1]; exact h1)
      (by rw [i.fi.dir.1]; exact hs)
  simp only [loc] at ht2
  simp only [chainOf, unit] at hfit
  by_cases hm : (s.ent j).size < MINMAX
  · rw [if_pos hm] at ht2
    rw [if_pos hm, if_pos hm] at hfit
    exact (addrM_addr g0 g1 hmini (i.fi.used j) (p := q) (by omega) (by simpa using ht1)) ht2.symm
  · rw [if_neg hm] at ht2
    rw [if_neg hm, if_neg hm] at hfit
    exact (addr_disj g0 (hdir j) (p := q) (by omega) (by simpa using ht1)) ht2.symm

theorem dir_off {ss id : Nat} (h : 128 ∣ ss) (h0 : 0 < ss) : id * 128 % ss + 128 ≤ ss := by
  obtain ⟨t, rfl⟩ := h
  have ht : 0 < t := by omega
  rw [Nat.mul_comm id, Nat.mul_mod_mul_left]
  have := Nat.mod_lt id ht
  have : 128 * (id % t + 1) ≤ 128 * t := Nat.mul_le_mul_left _ this
  omega

/-- **Flushing directory entries** leaves every stream and keeps the cache up to date. -/
theorem writeDirs_spec : ∀ (l : List (Nat × Bytes)) (s : Fs) (ch : Own → List Nat)
    (chm : Nat → List Nat), SInv s ch chm →
    (∀ p ∈ l, p.1 * 128 < s.dirChain.length * s.ss ∧ p.2.length = 128) →
    ∃ c f', writeDirs s l = .ok { s with cache := c, f := f' } ∧
      SInv { s with cache := c, f := f' } ch chm ∧
      FrameS s ch chm { s with cache := c, f := f' } ch chm fun _ => True
  | [], s, ch, chm, i, _ => ⟨s.cache, s.f, rfl, i, FrameS.refl ..⟩
  | (id, d) :: r, s, ch, chm, i, hl => by
    obtain ⟨g0, g1, g2⟩ := i.fi.ss
    obtain ⟨h1, h2⟩ := hl (id, d) (by simp)
    simp only at h1 h2
    have hq : id * 128 / s.ss < s.dirChain.length := by rwa [Nat.div_lt_iff_lt_mul g0]
    obtain ⟨sid, hsid⟩ : ∃ x, s.dirChain[id * 128 / s.ss]? = some x := ⟨_, List.getElem?_eq_getElem hq⟩
    have hoff : id * 128 % s.ss + d.length ≤ s.ss := by
      rw [h2]; exact dir_off (by omega) g0
    obtain ⟨c1, e1, hc1⟩ := pokeSector_spec i.coh sid (id * 128 % s.ss) d hoff
    obtain ⟨i1, fr1⟩ := poke_dir i (List.mem_of_getElem? hsid) hoff c1 hc1
    obtain ⟨c2, f2, e2, i2, fr2⟩ := writeDirs_spec r _ ch chm i1 (fun p hp => hl p (by simp [hp]))
    refine ⟨c2, f2, ?_, i2, fr1.trans fr2⟩
    simp only [writeDirs, bind, Except.bind]
    rw [idx_ok hsid]
    simp only
    rw [e1]
    exact e2

end Verif.Fat
