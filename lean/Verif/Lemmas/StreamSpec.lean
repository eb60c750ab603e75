import Verif.Lemmas.StreamOps
/-!
# Specifications of the stream operations
-/
namespace Verif.Fat
open Verif.Chain

/-- After an operation through `h` the state is consistent, the stream has the content `b`, the
handle the position `pos`, and the other streams are as before. -/
def After (s : Fs) (ch : Own → List Nat) (chm : Nat → List Nat) (h : Handle) (p : Fs × Handle)
    (b : Bytes) (pos : Nat) : Prop :=
  ∃ ch' chm', SInv p.1 ch' chm' ∧ HOk p.1 ch' chm' p.2 ∧ p.2.id = h.id ∧ p.2.pos = pos ∧
    cont p.1 ch' chm' h.id = b ∧ Frame s ch chm p.1 ch' chm' (· ≠ h.id)

theorem PInv.weaken {s : Fs} {ch : Own → List Nat} {chm : Nat → List Nat} {T T' : Nat → Prop}
    (i : PInv s ch chm T) (h : ∀ j, T' j → T j) : PInv s ch chm T' :=
  ⟨i.fi, i.coh, fun j hj => i.ents j (h j hj)⟩

theorem Frame.weaken {s s' : Fs} {ch ch' : Own → List Nat} {chm chm' : Nat → List Nat}
    {T T' : Nat → Prop} (i : Frame s ch chm s' ch' chm' T) (h : ∀ j, T' j → T j) :
    Frame s ch chm s' ch' chm' T' :=
  ⟨i.ss, i.mini, fun j hj => i.ent j (h j hj), fun j hj => i.chs j (h j hj),
    fun j hj => i.chms j (h j hj), fun j hj => i.cont j (h j hj), i.dir, i.dirB⟩

theorem le_sectors (size sz : Nat) (h : 0 < sz) : size ≤ sectors size sz * sz := by
  simp only [sectors]
  have h1 := Nat.div_add_mod (size + sz - 1) sz
  have h2 := Nat.mod_lt (size + sz - 1) h
  rw [Nat.mul_comm] at h1
  omega

/-- The whole chain of a stream is freed. -/
theorem freeChain_spec {s : Fs} {ch : Own → List Nat} {chm : Nat → List Nat} {T : Nat → Prop}
    (i : PInv s ch chm T) (id : Nat) (ho : EntOk s ch chm id) :
    ∃ s' ch' chm', freeFatChain s (s.ent id).start (isMini s id) = .ok s' ∧ FInv s' ch' chm' [] ∧
      ch' (.str id) = [] ∧ chm' id = [] ∧ (∀ j, j ≠ id → ch' (.str j) = ch (.str j)) ∧
      (∀ j, j ≠ id → chm' j = chm j) ∧ Keep s s' := by
  have hst := ho.start
  simp only [chainOf] at hst
  simp only [isMini]
  by_cases hm : (s.ent id).size < MINMAX
  · simp only [hm, if_true, decide_true] at hst ⊢
    obtain ⟨s1, h1, h2, h3, h4, h5, h6, h7⟩ := cut_mini_spec i.fi id [] (chm id) (by simp)
    rw [hst]
    exact ⟨s1, ch, _, h1, h5, ho.mini hm, by simp, fun j _ => rfl, fun j hj => updC_ne _ _ hj, h6⟩
  · simp only [hm, if_false, decide_false] at hst ⊢
    obtain ⟨s1, h1, h2, h3, h4, h5, h6, h7⟩ := cut_str_spec i.fi id [] (ch (.str id)) (by simp)
    rw [hst]
    exact ⟨s1, _, chm, h1, h5, by simp, ho.big hm, fun j hj => updC_ne _ _ (by simpa using hj),
      fun j _ => rfl, h6⟩

/-- The state after freeing a chain and setting the entry. -/
theorem freed {s s1 : Fs} {ch ch1 : Own → List Nat} {chm chm1 : Nat → List Nat} {id : Nat} {e : Ent}
    (i : SInv s ch chm) (hf : FInv s1 ch1 chm1 []) (hk : Keep s s1)
    (h1 : ∀ j, j ≠ id → ch1 (.str j) = ch (.str j)) (h2 : ∀ j, j ≠ id → chm1 j = chm j) :
    PInv (setEnt s1 id e) ch1 chm1 (· ≠ id) ∧ Frame s ch chm (setEnt s1 id e) ch1 chm1 (· ≠ id) := by
  have hent : ∀ j, j ≠ id → (setEnt s1 id e).ent j = s.ent j := by
    intro j hj; simp [setEnt, hj, hk.ent]
  refine ⟨⟨hf.withIO s1.f s1.cache _, ?_, ?_⟩, ?_⟩
  · have := i.coh
    unfold Coh at this ⊢
    simp only [setEnt, hk.f, hk.ss, hk.cache]; exact this
  · intro j hj
    exact (i.ents j trivial).congr hk.ss (hent j hj) (h1 j hj) (h2 j hj)
  · exact Frame.of_same (i.weaken fun _ _ => trivial) hk.f hk.ss hk.dir hk.mini hent h1 h2

/-- The entry of the grown stream is described. -/
theorem Grow.finish {s : Fs} {ch : Own → List Nat} {chm : Nat → List Nat} {id : Nat} {mini : Bool}
    {c : List Nat} (g : Grow s ch chm id mini c) (hm : mini = isMini s id)
    (hr : (s.ent id).size ≤ c.length * unit s id) :
    SInv s ch chm ∧ chainOf s ch chm id = c := by
  have hc : chainOf s ch chm id = c := by
    have := g.cc
    simp only [hm, isMini, decide_eq_true_eq] at this
    rw [this]; rfl
  have ho := g.o
  simp only [hm, isMini, decide_eq_true_eq] at ho
  refine ⟨⟨g.p.fi, g.p.coh, ?_⟩, hc⟩
  intro j _
  by_cases hj : j = id
  · subst hj
    exact ⟨fun h => by simpa [h] using ho, fun h => by simpa [h] using ho, by rw [hc]; exact g.start,
      by rw [hc]; exact hr⟩
  · exact g.p.ents j hj

theorem slice_full (b : Bytes) : slice b 0 (0 + b.length) = b := by simp [slice]

/-- **Allocate**: the content is kept, followed by whatever the new sectors hold. -/
theorem allocate_spec {s : Fs} {ch : Own → List Nat} {chm : Nat → List Nat} {h : Handle}
    (i : SInv s ch chm) (hh : HOk s ch chm h) (new : Nat) (hn : (s.ent h.id).size < new) :
    Good (allocate s h new) fun p => ∃ junk, junk.length = new - (s.ent h.id).size ∧
      After s ch chm h p (cont s ch chm h.id ++ junk) h.pos := by
  obtain ⟨h0, hd, _⟩ := i.fi.ss
  have ho := i.ents h.id trivial
  simp only [allocate]
  by_cases hcv : isMini s h.id = true ∧ MINMAX ≤ new
  · rw [if_pos hcv]
    obtain ⟨hmini, hbig⟩ := hcv
    have hsm : (s.ent h.id).size < MINMAX := by simpa [isMini] using hmini
    obtain ⟨c1, e1, hc1⟩ := read_spec (h := { h with pos := 0 }) i trivial
      ⟨hh.chain, by simp⟩ (-1)
    have hl : readLen (s.ent h.id).size 0 (-1) = (s.ent h.id).size := by simp [readLen]
    simp only [hl] at e1
    have hsl : slice (cont s ch chm h.id) 0 (0 + (s.ent h.id).size) = cont s ch chm h.id := by
      have := slice_full (cont s ch chm h.id)
      simpa using this
    rw [hsl] at e1
    rw [e1]
    simp only [bind, Except.bind, cont_length, ne_eq, not_true_eq_false, if_false]
    obtain ⟨i1, fr1⟩ := i.withCache hc1
    have ho1 : EntOk { s with cache := c1 } ch chm h.id := ho.congr rfl rfl rfl rfl
    obtain ⟨s2, ch2, chm2, e2, hf2, hz1, hz2, hch2, hchm2, hk2⟩ := freeChain_spec i1 h.id ho1
    have hmini1 : isMini { s with cache := c1 } h.id = true := hmini
    rw [hmini1] at e2
    simp only at e2
    rw [e2]
    simp only
    obtain ⟨p3, fr3⟩ := freed (e := ⟨none, new⟩) i1 hf2 hk2 hch2 hchm2
    have g3 : Grow (setEnt s2 h.id ⟨none, new⟩) ch2 chm2 h.id false [] :=
      ⟨p3, by simp [hz1], by simp [hz2], by simp [setEnt]⟩
    apply Good.bind (allocLoop_spec false (sectors new (setEnt s2 h.id ⟨none, new⟩).ss) _
      { h with pos := 0 + (s.ent h.id).size, chain := [] } ch2 chm2 g3)
    rintro ⟨s4, h4⟩ ⟨l, ch4, chm4, hl4, e4, g4, fr4, hsz4, hf4⟩
    simp only [List.nil_append] at e4 g4 hsz4 fr4 hf4 ⊢
    subst e4
    have hsz4' : (s4.ent h.id).size = new := by rw [hsz4]; simp [setEnt]
    have hss4 : s4.ss = s.ss := by rw [fr4.ss]; exact hk2.ss
    have hun4 : unit s4 h.id = s.ss := by
      simp only [unit, hsz4']; rw [if_neg (by omega), hss4]
    have hl4' : l.length = sectors new s.ss := by rw [hl4]; simp only [setEnt]; rw [hk2.ss]
    have hroom : new ≤ l.length * s.ss := by rw [hl4']; exact le_sectors _ _ h0
    obtain ⟨i4, hc4⟩ := g4.finish (by simp only [isMini, hsz4']; simp; omega)
      (by rw [hsz4', hun4]; exact hroom)
    have hrm : room s4 ch4 chm4 h.id = l.length * s.ss := by simp [room, hc4, hun4]
    obtain ⟨c5, f5, e5, hc5, w5⟩ := writeData_spec
      (h := { h with pos := 0, chain := l }) (s := s4) i4.fi i4.coh hc4.symm
      (cont s ch chm h.id) (by simp only [cont_length, hrm]; omega)
      (by simp only [cont_length, hsz4']; omega)
    rw [e5]
    apply Good.ok
    simp only [cont_length] at w5 hrm ⊢
    have fr5 := w5.frame (c := c5) (T := (· ≠ h.id)) (i4.weaken fun _ _ => trivial) (fun _ hj => hj)
      (by simp only [cont_length, hrm]; omega)
    have hcont := w5.cont i4.fi new (by rw [hrm]; exact hroom) (by simp; omega)
    refine ⟨(rd s4.f (loc s4 ch4 chm4 h.id) 0 new).drop (s.ent h.id).size, by simp, ch4, chm4, ?_, ?_, rfl, ?_, ?_, ?_⟩
    · exact ⟨i4.fi.withIO f5 c5 s4.ent, hc5, fun j _ => (i4.ents j trivial).congr rfl rfl rfl rfl⟩
    · refine ⟨hc4.symm, ?_⟩
      show min h.pos (s.ent h.id).size ≤ (s4.ent h.id).size
      rw [hsz4']; omega
    · show min h.pos (s.ent h.id).size = h.pos
      have := hh.pos; omega
    · show rd f5 (loc s4 ch4 chm4 h.id) 0 (s4.ent h.id).size = _
      rw [hsz4', hcont]
      simp [overwrite]
    · exact ((fr1.weaken fun _ _ => trivial).trans (fr3.trans fr4)).trans fr5
  · rw [if_neg hcv]
    have hmode : (new < MINMAX ↔ (s.ent h.id).size < MINMAX) := by
      simp only [isMini, decide_eq_true_eq] at hcv; omega
    have hmini : isMini (setEnt s h.id { s.ent h.id with size := new }) h.id = isMini s h.id := by
      simp only [isMini, setEnt, if_true]; exact decide_eq_decide.mpr hmode
    rw [hmini]
    obtain ⟨p1, fr1⟩ := freed (s1 := s) (ch1 := ch) (chm1 := chm) (id := h.id)
      (e := { s.ent h.id with size := new }) i i.fi (Keep.refl s) (fun _ _ => rfl) (fun _ _ => rfl)
    have g1 : Grow (setEnt s h.id { s.ent h.id with size := new }) ch chm h.id (isMini s h.id) h.chain := by
      refine ⟨p1, ?_, ?_, ?_⟩
      · rw [hh.chain]; simp only [chainOf, isMini, decide_eq_true_eq]
      · by_cases hm : (s.ent h.id).size < MINMAX
        · simp [isMini, hm, ho.mini hm]
        · simp [isMini, hm, ho.big hm]
      · simp only [setEnt, if_true]; rw [hh.chain]; exact ho.start
    apply (allocLoop_spec _ _ _ h ch chm g1).mono
    rintro ⟨s4, h4⟩ ⟨l, ch4, chm4, hl4, e4, g4, fr4, hsz4, hf4⟩
    simp only at e4 g4 hsz4 fr4 hf4 ⊢
    subst e4
    have hsz4' : (s4.ent h.id).size = new := by rw [hsz4]; simp [setEnt]
    have hss4 : s4.ss = s.ss := fr4.ss
    have hun : unit s h.id = if isMini s h.id then 64 else s.ss := by
      simp [unit, isMini]
    have hun4 : unit s4 h.id = unit s h.id := by
      simp only [unit, hsz4', hss4]
      by_cases hm : (s.ent h.id).size < MINMAX
      · rw [if_pos hm, if_pos (hmode.mpr hm)]
      · rw [if_neg hm, if_neg (fun h => hm (hmode.mp h))]
    have hu0 : 0 < unit s h.id := by simp only [unit]; split <;> omega
    have hl4' : l.length = sectors new (unit s h.id) - h.chain.length := by rw [hl4, hun]; rfl
    have hroom : new ≤ (h.chain ++ l).length * unit s h.id := by
      have h1 := le_sectors new _ hu0
      have h2 : sectors new (unit s h.id) ≤ (h.chain ++ l).length := by simp; omega
      exact Nat.le_trans h1 (Nat.mul_le_mul_right _ h2)
    obtain ⟨i4, hc4⟩ := g4.finish (by
        simp only [isMini, hsz4']; exact (decide_eq_decide.mpr hmode).symm)
      (by rw [hsz4', hun4]; exact hroom)
    refine ⟨rd s4.f (loc s4 ch4 chm4 h.id) (s.ent h.id).size (new - (s.ent h.id).size), by simp,
      ch4, chm4, i4, ⟨hc4.symm, ?_⟩, rfl, rfl, ?_, fr1.trans fr4⟩
    · show h.pos ≤ _; rw [hsz4']; have := hh.pos; omega
    · have e : new = (s.ent h.id).size + (new - (s.ent h.id).size) := by omega
      have h1 : ∃ l', ch4 (.str h.id) = ch (.str h.id) ++ l' := by
        have h2 := g4.cc
        have h3 := g4.o
        have h4 := hh.chain
        simp only [isMini, decide_eq_true_eq, chainOf] at h2 h3 h4
        by_cases hm : (s.ent h.id).size < MINMAX
        · rw [if_pos hm] at h3; exact ⟨[], by rw [h3, ho.mini hm]; rfl⟩
        · rw [if_neg hm] at h2 h4; exact ⟨l, by rw [← h2, h4]⟩
      have h1' : ∃ l', chm4 h.id = chm h.id ++ l' := by
        have h2 := g4.cc
        have h3 := g4.o
        have h4 := hh.chain
        simp only [isMini, decide_eq_true_eq, chainOf] at h2 h3 h4
        by_cases hm : (s.ent h.id).size < MINMAX
        · rw [if_pos hm] at h2 h4; exact ⟨l, by rw [← h2, h4]⟩
        · rw [if_neg hm] at h3; exact ⟨[], by rw [h3, ho.big hm]; rfl⟩
      show rd s4.f _ 0 (s4.ent h.id).size = rd s.f _ 0 (s.ent h.id).size ++ _
      rw [hsz4']
      conv => lhs; rw [e]
      rw [rd_add, Nat.zero_add]
      congr 1
      apply rd_congr
      intro q _ hq
      rw [hf4]
      show byteAt s.f _ = _
      rw [loc_ext i.fi hss4 fr4.mini (by rw [hsz4']; exact hmode) h1 h1']
      exact Nat.lt_of_lt_of_le (by omega) ho.fits

/-- **Write** with the room being there. -/
theorem writeData_after {s : Fs} {ch : Own → List Nat} {chm : Nat → List Nat} {h : Handle}
    (i : SInv s ch chm) (hh : HOk s ch chm h) (data : Bytes)
    (hs : h.pos + data.length ≤ (s.ent h.id).size) :
    ∃ p, writeData s h data = .ok p ∧
      After s ch chm h p (overwrite (cont s ch chm h.id) h.pos data) (h.pos + data.length) := by
  have hfit := (i.ents h.id trivial).fits
  have hrm : (s.ent h.id).size ≤ room s ch chm h.id := hfit
  obtain ⟨c, f', e, hc, w⟩ := writeData_spec i.fi i.coh hh.chain data (by omega) hs
  refine ⟨_, e, ch, chm, ⟨i.fi.withIO f' c s.ent, hc, fun j _ => (i.ents j trivial).congr rfl rfl rfl rfl⟩,
    ⟨hh.chain, hs⟩, rfl, rfl, ?_, w.frame (i.weaken fun _ _ => trivial) (fun _ h => h) (by omega)⟩
  exact w.cont i.fi _ hrm hs

theorem After.trans {s : Fs} {ch : Own → List Nat} {chm : Nat → List Nat} {h : Handle}
    {p : Fs × Handle} {b : Bytes} {pos : Nat} (a : After s ch chm h p b pos)
    {r : Res (Fs × Handle)} {b' : Bytes} {pos' : Nat}
    (hk : ∀ ch1 chm1, SInv p.1 ch1 chm1 → HOk p.1 ch1 chm1 p.2 → cont p.1 ch1 chm1 p.2.id = b →
      p.2.pos = pos → p.2.id = h.id → Good r fun q => After p.1 ch1 chm1 p.2 q b' pos') :
    Good r fun q => After s ch chm h q b' pos' := by
  obtain ⟨ch1, chm1, i1, h1, hid, hpos, hcont, fr⟩ := a
  apply (hk ch1 chm1 i1 h1 (by rw [hid]; exact hcont) hpos hid).mono
  rintro q ⟨ch2, chm2, i2, h2, hid2, hpos2, hcont2, fr2⟩
  rw [hid] at hid2 hcont2 fr2
  exact ⟨ch2, chm2, i2, h2, hid2, hpos2, hcont2, fr.trans fr2⟩

theorem After.size {s : Fs} {ch : Own → List Nat} {chm : Nat → List Nat} {h : Handle}
    {p : Fs × Handle} {b : Bytes} {pos : Nat} (a : After s ch chm h p b pos) :
    (p.1.ent h.id).size = b.length := by
  obtain ⟨ch1, chm1, _, _, _, _, hcont, _⟩ := a
  rw [← hcont]; simp

/-- **Write.** -/
theorem write_spec {s : Fs} {ch : Own → List Nat} {chm : Nat → List Nat} {h : Handle}
    (i : SInv s ch chm) (hh : HOk s ch chm h) (data : Bytes) :
    Good (write s h data) fun p =>
      After s ch chm h p (overwrite (cont s ch chm h.id) h.pos data) (h.pos + data.length) := by
  have hp := hh.pos
  simp only [write]
  by_cases hn : max (h.pos + data.length) (s.ent h.id).size > (s.ent h.id).size
  · rw [if_pos hn]
    apply Good.bind (allocate_spec i hh _ hn)
    rintro ⟨s1, h1⟩ ⟨junk, hj, a⟩
    have hsz := a.size
    simp only at hsz ⊢
    apply a.trans
    intro ch1 chm1 i1 hh1 hc hpos hid
    simp only at hc hpos hid i1 hh1 ⊢
    obtain ⟨q, e, aq⟩ := writeData_after i1 hh1 data (by
      rw [hid, hsz, hpos]; simp [hj]; omega)
    rw [e]
    apply Good.ok
    rw [hc, hpos] at aq
    have : overwrite (cont s ch chm h.id ++ junk) h.pos data = overwrite (cont s ch chm h.id) h.pos data := by
      simp only [overwrite]
      rw [List.take_append_of_le_length (by simp; omega)]
      congr 1
      rw [List.drop_eq_nil_of_le (by simp; omega), List.drop_eq_nil_of_le (by simp; omega)]
    rw [this] at aq
    exact aq
  · rw [if_neg hn]
    obtain ⟨p, e, a⟩ := writeData_after i hh data (by omega)
    simp only [bind, Except.bind]
    rw [e]
    exact Good.ok a

/-- The zeros appended by `seek`. -/
theorem seekLoop_spec (o : Nat) : ∀ (fuel left : Nat) (s : Fs) (h : Handle) (ch : Own → List Nat)
    (chm : Nat → List Nat), SInv s ch chm → HOk s ch chm h → h.pos = (s.ent h.id).size →
    o = (s.ent h.id).size + left → left ≤ fuel →
    Good (seekLoop o fuel left s h) fun p =>
      After s ch chm h p (cont s ch chm h.id ++ List.replicate left 0) o
  | _, 0, s, h, ch, chm, i, hh, hpos, ho, _ => by
    simp only [seekLoop]
    exact Good.ok ⟨ch, chm, i, hh, rfl, by rw [hpos]; omega, by simp, Frame.refl ..⟩
  | 0, left + 1, _, _, _, _, _, _, _, _, hle => by omega
  | fuel + 1, left + 1, s, h, ch, chm, i, hh, hpos, ho, hle => by
    obtain ⟨h0, _, _⟩ := i.fi.ss
    simp only [seekLoop]
    generalize hk : min (s.ss * 4) (o - (s.ent h.id).size) = k
    have hk1 : 0 < k := by omega
    have hk2 : k ≤ left + 1 := by omega
    apply Good.bind (write_spec i hh _)
    rintro ⟨s1, h1⟩ a
    have hsz := a.size
    have hov : overwrite (cont s ch chm h.id) h.pos (List.replicate k 0) =
        cont s ch chm h.id ++ List.replicate k 0 := by
      simp only [overwrite]
      rw [List.take_of_length_le (by simp [hpos]), List.drop_eq_nil_of_le (by simp; omega)]
      simp
    rw [hov] at a hsz
    simp only [List.length_append, cont_length, List.length_replicate] at hsz
    apply a.trans
    intro ch1 chm1 i1 hh1 hc hp1 hid
    simp only at hc hp1 hid i1 hh1 ⊢
    simp only [List.length_replicate] at hp1
    have := seekLoop_spec o fuel (left + 1 - k) s1 h1 ch1 chm1 i1 hh1 (by rw [hp1, hid, hsz, hpos])
      (by rw [hid, hsz]; omega) (by omega)
    rw [hc, List.append_assoc, List.replicate_append_replicate] at this
    have e : k + (left + 1 - k) = left + 1 := by omega
    rw [e] at this
    exact this

/-- The absolute position meant by `seek`. -/
def target (size pos : Nat) (offset : Int) (whence : Nat) : Int :=
  if whence = 1 then (pos : Int) + offset else if whence = 2 then (size : Int) + offset else offset

theorem seek_neg {s : Fs} {h : Handle} {offset : Int} {whence : Nat}
    (hn : target (s.ent h.id).size h.pos offset whence < 0) :
    seek s h offset whence = .error .valueError := by
  simp only [target] at hn
  simp [seek, hn]

/-- **Seek.** -/
theorem seek_spec {s : Fs} {ch : Own → List Nat} {chm : Nat → List Nat} {h : Handle}
    (i : SInv s ch chm) (hh : HOk s ch chm h) (offset : Int) (whence o : Nat)
    (ho : target (s.ent h.id).size h.pos offset whence = o) :
    Good (seek s h offset whence) fun p => p.1 = o ∧ After s ch chm h p.2
      (cont s ch chm h.id ++ List.replicate (o - (s.ent h.id).size) 0) o := by
  simp only [target] at ho
  simp only [seek, ho]
  rw [if_neg (by omega)]
  simp only [Int.toNat_natCast]
  by_cases hgt : o > (s.ent h.id).size
  · rw [if_pos hgt]
    apply Good.bind (seekLoop_spec o _ (o - (s.ent h.id).size) s
      { h with pos := (s.ent h.id).size } ch chm i ⟨hh.chain, by simp⟩ rfl (by simp; omega) (Nat.le_refl _))
    rintro ⟨s1, h1⟩ ⟨ch1, chm1, i1, hh1, hid, hpos, hcont, fr⟩
    simp only at i1 hh1 hid hpos hcont fr ⊢
    refine Good.ok ⟨rfl, ch1, chm1, i1, ⟨hh1.chain, ?_⟩, hid, rfl, hcont, fr⟩
    have := hh1.pos
    simp only; rw [hpos] at this; exact this
  · rw [if_neg hgt]
    simp only [bind, Except.bind]
    refine Good.ok ⟨rfl, ch, chm, i, ⟨hh.chain, by simp only; omega⟩, rfl, rfl, ?_, Frame.refl ..⟩
    have : o - (s.ent h.id).size = 0 := by omega
    simp [this]

/-- **Dropping** the data of a stream. -/
theorem dropStream_spec {s : Fs} {ch : Own → List Nat} {chm : Nat → List Nat}
    (i : SInv s ch chm) (id : Nat) :
    ∃ s', dropStream s id = .ok s' ∧ ∃ ch' chm', SInv s' ch' chm' ∧
      s'.ent id = ⟨none, 0⟩ ∧ ch' (.str id) = [] ∧ chm' id = [] ∧ Frame s ch chm s' ch' chm' (· ≠ id) := by
  obtain ⟨s1, ch1, chm1, e1, hf1, hz1, hz2, hch1, hchm1, hk1⟩ := freeChain_spec i id (i.ents id trivial)
  obtain ⟨p, fr⟩ := freed (e := ⟨none, 0⟩) i hf1 hk1 hch1 hchm1
  refine ⟨setEnt s1 id ⟨none, 0⟩, by simp [dropStream, e1, bind, Except.bind], ch1, chm1,
    ⟨p.fi, p.coh, ?_⟩, by simp [setEnt], hz1, hz2, fr⟩
  intro j _
  by_cases hj : j = id
  · subst hj
    exact ⟨fun _ => hz1, fun _ => hz2, by simp [setEnt, chainOf, MINMAX, hz2], by simp [setEnt]⟩
  · exact p.ents j hj

/-- **Opening** a stream. -/
theorem openStream_spec {s : Fs} {ch : Own → List Nat} {chm : Nat → List Nat}
    (i : SInv s ch chm) (id : Nat) :
    ∃ h, openStream s id = .ok h ∧ HOk s ch chm h ∧ h.id = id ∧ h.pos = 0 := by
  have ho := i.ents id trivial
  have hst := ho.start
  obtain ⟨F, D, oth, hf⟩ := i.fi.fat
  have g1 := fun o => hf.t.getChain o
  have g2 := fun o => i.fi.m.getChain o
  refine ⟨⟨id, 0, chainOf s ch chm id⟩, ?_, ⟨rfl, by simp⟩, rfl, rfl⟩
  simp only [openStream]
  cases hc : (s.ent id).start with
  | none =>
    rw [hc] at hst
    rw [List.head?_eq_none_iff.mp hst.symm]
    rfl
  | some x =>
    rw [hc] at hst
    simp only
    rw [hst]
    have : getFatChain (if isMini s id = true then s.minifat else s.fat) (chainOf s ch chm id).head? =
        .ok (chainOf s ch chm id) := by
      simp only [chainOf, isMini, decide_eq_true_eq]
      by_cases hm : (s.ent id).size < MINMAX
      · rw [if_pos hm, if_pos hm]; exact g2 id
      · rw [if_neg hm, if_neg hm]; exact g1 (.str id)
    rw [this]; rfl

end Verif.Fat
