import Verif.Lemmas.StreamAddr
/-!
# The stream operations keep the state consistent and act on one byte array
-/
namespace Verif.Fat
open Verif.Chain

/-- The handle has the chain of its stream and a position inside it. -/
structure HOk (s : Fs) (ch : Own → List Nat) (chm : Nat → List Nat) (h : Handle) : Prop where
  chain : h.chain = chainOf s ch chm h.id
  pos : h.pos ≤ (s.ent h.id).size

theorem rd_slice (f : Bytes) (l : Nat → Nat) (n a k : Nat) (h : a + k ≤ n) :
    rd f l a k = slice (rd f l 0 n) a (a + k) := by
  apply List.ext_getElem?
  intro j
  simp only [slice, rd_getElem?, List.getElem?_take, List.getElem?_drop]
  by_cases hj : j < k
  · rw [if_pos hj, if_pos (by omega), if_pos (by omega)]; congr 2; congr 1; omega
  · rw [if_neg hj, if_neg (by omega)]

theorem readLen_le (size pos : Nat) (n : Int) (h : pos ≤ size) : pos + readLen size pos n ≤ size := by
  simp only [readLen]; split <;> omega

theorem FInv.covers {s : Fs} {ch : Own → List Nat} {chm : Nat → List Nat} {m : List Nat}
    (i : FInv s ch chm m) (id : Nat) : ∀ x ∈ chm id, x < s.miniChain.length * (s.ss / 64) :=
  i.used id

/-- Reading returns the bytes at the position and changes nothing but the cache. -/
theorem read_spec {s : Fs} {ch : Own → List Nat} {chm : Nat → List Nat} {T : Nat → Prop} {h : Handle}
    (i : PInv s ch chm T) (ht : T h.id) (hh : HOk s ch chm h) (n : Int) :
    ∃ c, read s h n = .ok (slice (cont s ch chm h.id) h.pos
        (h.pos + readLen (s.ent h.id).size h.pos n), { s with cache := c },
        { h with pos := h.pos + readLen (s.ent h.id).size h.pos n }) ∧
      Coh { s with cache := c } := by
  obtain ⟨h0, hd, _⟩ := i.fi.ss
  have hle := readLen_le _ _ n hh.pos
  have hfit := (i.ents _ ht).fits
  have hch := hh.chain
  simp only [read]
  generalize hk : readLen (s.ent h.id).size h.pos n = k at *
  simp only [cont]
  rw [← rd_slice _ _ _ _ _ hle]
  simp only [chainOf, unit] at hfit hch
  by_cases hm : (s.ent h.id).size < MINMAX
  · simp only [hm, if_true] at hfit hch ⊢
    obtain ⟨c, e, hc⟩ := readMini_spec k s h.chain (h.pos / 64) (h.pos % 64) none i.coh hd h0
      (by omega) (by rw [hch]; omega) (by rw [hch]; exact i.fi.covers _) (by simp)
    refine ⟨c, ?_, hc⟩
    rw [e]
    have e1 : h.pos / 64 * 64 + h.pos % 64 = h.pos := by omega
    simp only [bind, Except.bind, e1, loc, hm, if_true, hch]
  · simp only [hm, if_false] at hfit hch ⊢
    have e1 : h.pos / s.ss * s.ss + h.pos % s.ss = h.pos := by
      rw [Nat.mul_comm]; exact Nat.div_add_mod _ _
    obtain ⟨c, e, hc⟩ := readBig_spec k s h.chain (h.pos / s.ss) (h.pos % s.ss) i.coh h0
      (Nat.mod_lt _ h0) (by rw [hch, e1]; omega)
    refine ⟨c, ?_, hc⟩
    rw [e]
    simp only [bind, Except.bind, e1, loc, hm, if_false, hch]

/-- The state after a change of the cache only. -/
theorem PInv.withCache {s : Fs} {ch : Own → List Nat} {chm : Nat → List Nat} {T : Nat → Prop}
    (i : PInv s ch chm T) {c : Lru.Cache Nat Bytes} (hc : Coh { s with cache := c }) :
    PInv { s with cache := c } ch chm T ∧ Frame s ch chm { s with cache := c } ch chm T := by
  refine ⟨⟨i.fi.withIO s.f c s.ent, hc, fun j hj => (i.ents j hj).congr rfl rfl rfl rfl⟩, ?_⟩
  exact Frame.of_same i rfl rfl rfl ⟨[], by simp⟩ (fun _ _ => rfl) (fun _ _ => rfl) (fun _ _ => rfl)

/-- Writing where there is room. -/
theorem writeData_spec {s : Fs} {ch : Own → List Nat} {chm : Nat → List Nat} {h : Handle}
    (i : FInv s ch chm []) (hc : Coh s) (hch : h.chain = chainOf s ch chm h.id) (data : Bytes)
    (hr : h.pos + data.length ≤ room s ch chm h.id)
    (hs : h.pos + data.length ≤ (s.ent h.id).size) :
    ∃ c f', writeData s h data = .ok ({ s with cache := c, f := f' },
        { h with pos := h.pos + data.length }) ∧
      Coh { s with cache := c, f := f' } ∧ Wrote s.f f' (loc s ch chm h.id) h.pos data := by
  obtain ⟨h0, hd, _⟩ := i.ss
  have hinj := fun p q hp hq hl => i.loc_inj (p := p) (q := q) h.id hp hq hl
  simp only [writeData]
  simp only [room, chainOf, unit, loc] at hr hch hinj ⊢
  by_cases hm : (s.ent h.id).size < MINMAX
  · simp only [hm, if_true] at hr hch hinj ⊢
    have e1 : h.pos / 64 * 64 + h.pos % 64 = h.pos := by omega
    obtain ⟨c, f', e, h1, h2⟩ := writeMini_spec _ s h.chain (h.pos / 64) (h.pos % 64) data rfl hc hd h0
      (by omega) (by rw [hch]; omega) (by rw [hch]; exact i.covers _) (by rw [hch]; exact hinj)
    refine ⟨c, f', ?_, h1, by rw [e1, hch] at h2; exact h2⟩
    rw [e]; simp [bind, Except.bind, hs]
  · simp only [hm, if_false] at hr hch hinj ⊢
    have e1 : h.pos / s.ss * s.ss + h.pos % s.ss = h.pos := by
      rw [Nat.mul_comm]; exact Nat.div_add_mod _ _
    obtain ⟨c, f', e, h1, h2⟩ := writeBig_spec _ s h.chain (h.pos / s.ss) (h.pos % s.ss) data rfl hc h0
      (Nat.mod_lt _ h0) (by rw [hch, e1]; omega) (by rw [hch]; exact hinj)
    refine ⟨c, f', ?_, h1, by rw [e1, hch] at h2; exact h2⟩
    rw [e]; simp [bind, Except.bind, hs]

/-- Writing the bytes of one stream leaves the others. -/
theorem Wrote.frame {s : Fs} {ch : Own → List Nat} {chm : Nat → List Nat} {T : Nat → Prop} {id p : Nat}
    {data f' : Bytes} {c : Lru.Cache Nat Bytes} (i : PInv s ch chm T) (ht : ∀ j, T j → j ≠ id)
    (w : Wrote s.f f' (loc s ch chm id) p data) (hr : p + data.length ≤ room s ch chm id) :
    Frame s ch chm { s with cache := c, f := f' } ch chm T := by
  refine ⟨rfl, ⟨[], by simp⟩, fun _ _ => rfl, fun _ _ => rfl, fun _ _ => rfl, ?_, rfl, ?_⟩
  rotate_left
  · intro q hq
    apply w.2
    intro k hk
    exact (i.fi.loc_dir (show p + k < _ by omega) hq).symm
  intro j hj
  simp only [cont]
  apply rd_congr
  intro q _ hq
  show byteAt f' (loc s ch chm j q) = _
  apply w.2
  intro k hk
  have hfit := (i.ents j hj).fits
  exact i.fi.loc_disj (ht j hj) (Nat.lt_of_lt_of_le (show q < (s.ent j).size by omega) hfit)
    (show p + k < _ by omega)

/-- `b` with the bytes from `p` on replaced by `d`, extended if necessary. -/
def overwrite (b : Bytes) (p : Nat) (d : Bytes) : Bytes := b.take p ++ d ++ b.drop (p + d.length)

theorem Wrote.cont {s : Fs} {ch : Own → List Nat} {chm : Nat → List Nat} {id p : Nat}
    {data f' : Bytes} (i : FInv s ch chm [])
    (w : Wrote s.f f' (loc s ch chm id) p data) (n : Nat) (hn : n ≤ room s ch chm id)
    (hs : p + data.length ≤ n) :
    rd f' (loc s ch chm id) 0 n = overwrite (rd s.f (loc s ch chm id) 0 n) p data := by
  apply List.ext_getElem?
  intro j
  have hl1 : ((rd s.f (loc s ch chm id) 0 n).take p).length = p := by simp; omega
  simp only [overwrite, rd_getElem?, Nat.zero_add]
  by_cases h1 : j < p
  · rw [if_pos (by omega), List.append_assoc, List.getElem?_append_left (by omega),
      List.getElem?_take, if_pos h1, rd_getElem?, if_pos (by omega), Nat.zero_add]
    congr 1
    apply w.2
    intro k hk he
    have := i.loc_inj id (p := j) (q := p + k) (by omega) (by omega) he
    omega
  · rw [List.append_assoc, List.getElem?_append_right (by omega), hl1]
    by_cases h2 : j < p + data.length
    · rw [if_pos (by omega), List.getElem?_append_left (by omega)]
      have := w.1 (j - p) (by omega)
      have e : p + (j - p) = j := by omega
      rw [e] at this
      rw [this, List.getD, List.getElem?_eq_getElem (by omega)]
      rfl
    · rw [List.getElem?_append_right (by omega), List.getElem?_drop, rd_getElem?]
      have e : p + data.length + (j - p - data.length) = j := by omega
      rw [e]
      split
      · rw [Nat.zero_add]
        congr 1
        apply w.2
        intro k hk he
        have := i.loc_inj id (p := j) (q := p + k) (by omega) (by omega) he
        omega
      · rfl

/-! ## Room -/

/-- Everything except the entry of one stream, which has the chain `c`. -/
structure Grow (s : Fs) (ch : Own → List Nat) (chm : Nat → List Nat) (id : Nat) (mini : Bool)
    (c : List Nat) : Prop where
  p : PInv s ch chm (· ≠ id)
  cc : c = if mini then chm id else ch (.str id)
  o : (if mini then ch (.str id) else chm id) = []
  start : (s.ent id).start = c.head?

theorem allocLoop_spec (mini : Bool) : ∀ (k : Nat) (s : Fs) (h : Handle) (ch : Own → List Nat)
    (chm : Nat → List Nat), Grow s ch chm h.id mini h.chain →
    Good (allocLoop mini k s h) fun p => ∃ l ch' chm', l.length = k ∧
      p.2 = { h with chain := h.chain ++ l } ∧ Grow p.1 ch' chm' h.id mini (h.chain ++ l) ∧
      Frame s ch chm p.1 ch' chm' (· ≠ h.id) ∧ (p.1.ent h.id).size = (s.ent h.id).size ∧
      p.1.f = s.f
  | 0, s, h, ch, chm, g => Good.ok ⟨[], ch, chm, rfl, by simp, by simpa using g, Frame.refl .., rfl, rfl⟩
  | k + 1, s, h, ch, chm, g => by
    simp only [allocLoop]
    -- one sector
    have hstep : Good (fatChainAppend s h.chain.getLast? mini) fun p => ∃ ch' chm',
        FInv p.2 ch' chm' [] ∧ Keep s p.2 ∧ (∀ j, j ≠ h.id → ch' (.str j) = ch (.str j)) ∧
        (∀ j, j ≠ h.id → chm' j = chm j) ∧
        (if mini then chm' h.id else ch' (.str h.id)) = h.chain ++ [p.1] ∧
        (if mini then ch' (.str h.id) else chm' h.id) = [] := by
      have hc := g.cc
      have ho := g.o
      cases mini with
      | true =>
        simp only [if_true] at hc ho ⊢
        rw [hc]
        apply (append_mini_spec g.p.fi h.id).mono
        rintro ⟨x, s'⟩ ⟨ch', h1, h2, h3⟩
        exact ⟨ch', _, h1, h3, fun j _ => h2 j, fun j hj => updC_ne _ _ hj, by simp,
          by rw [h2]; exact ho⟩
      | false =>
        simp only [Bool.false_eq_true, if_false] at hc ho ⊢
        rw [hc]
        apply (append_str_spec g.p.fi h.id).mono
        rintro ⟨x, s'⟩ ⟨h1, h3⟩
        exact ⟨_, chm, h1, h3, fun j hj => updC_ne _ _ (by simpa using hj), fun j hj => rfl, by simp, ho⟩
    apply Good.bind hstep
    rintro ⟨x, s1⟩ ⟨ch1, chm1, hi1, hk1, h1, h2, h3, h4⟩
    simp only at hk1 hi1 h3 ⊢
    -- the entry
    generalize hs2 : (if (s1.ent h.id).start = none then
      setEnt s1 h.id { s1.ent h.id with start := some x } else s1) = s2
    have hst : (s1.ent h.id).start = h.chain.head? := by rw [hk1.ent]; exact g.start
    have e2 : ∃ e : Nat → Ent, s2 = { s1 with ent := e } ∧ (∀ j, j ≠ h.id → e j = s1.ent j) ∧
        (e h.id).size = (s1.ent h.id).size ∧ (e h.id).start = (h.chain ++ [x]).head? := by
      split at hs2
      · rename_i hn
        refine ⟨_, hs2.symm, fun j hj => if_neg hj, by simp, ?_⟩
        rw [hst] at hn
        have : h.chain = [] := List.head?_eq_none_iff.mp hn
        simp [this]
      · rename_i hn
        refine ⟨s1.ent, hs2.symm, fun j hj => rfl, rfl, ?_⟩
        rw [hst] at hn ⊢
        cases hcc : h.chain with
        | nil => rw [hcc] at hn; simp at hn
        | cons => rfl
    obtain ⟨e, e2, e3, e4, e5⟩ := e2
    have hfr : Frame s ch chm s2 ch1 chm1 (· ≠ h.id) := by
      apply Frame.of_same g.p
      · rw [e2]; exact hk1.f
      · rw [e2]; exact hk1.ss
      · rw [e2]; exact hk1.dir
      · rw [e2]; exact hk1.mini
      · intro j hj; rw [e2]; simp only; rw [e3 j hj, hk1.ent]
      · exact h1
      · exact h2
    have hg : Grow s2 ch1 chm1 h.id mini (h.chain ++ [x]) := by
      refine ⟨⟨?_, ?_, ?_⟩, h3.symm, h4, ?_⟩
      · rw [e2]; exact hi1.withIO s1.f s1.cache e
      · have := g.p.coh
        unfold Coh at this ⊢
        rw [e2]; simp only; rw [hk1.f, hk1.ss, hk1.cache]; exact this
      · intro j hj
        exact (g.p.ents j hj).congr hfr.ss (hfr.ent j hj) (hfr.chs j hj) (hfr.chms j hj)
      · rw [e2]; exact e5
    have hid : ({ h with chain := h.chain ++ [x] } : Handle).id = h.id := rfl
    apply (allocLoop_spec mini k s2 { h with chain := h.chain ++ [x] } ch1 chm1 hg).mono
    rintro ⟨s3, h'⟩ ⟨l, ch', chm', hl, e6, hg', hfr', hsz, hf'⟩
    simp only at e6 hg' hfr' hsz hf'
    refine ⟨x :: l, ch', chm', by simp [hl], by simp [e6], by simpa using hg', hfr.trans hfr', ?_, ?_⟩
    · rw [hsz, e2]; simp only; rw [e4, hk1.ent]
    · rw [hf', e2]; exact hk1.f

end Verif.Fat
