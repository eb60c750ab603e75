import Verif.Model.Stream
import Verif.Lemmas.CacheOk
/-!
# The bytes of a stream in the file

`byteAt f i` is the byte of the file at offset `i` (zero beyond the end).  `addr` / `addrM` give the
file offset of byte `p` of a stream stored in regular / mini sectors.
-/
namespace Verif.Fat
open Verif.Chain

/-- The byte at an offset of the file, zero beyond its end. -/
def byteAt (f : Bytes) (i : Nat) : UInt8 := f.getD i 0

/-- Bytes `p .. p+n` of something whose byte `q` is at offset `loc q` of the file. -/
def rd (f : Bytes) (loc : Nat → Nat) (p n : Nat) : Bytes :=
  (List.range' p n).map fun q => byteAt f (loc q)

/-- The content of a sector. -/
def sector (f : Bytes) (ss sid : Nat) : Bytes := rd f id ((sid + 1) * ss) ss

/-- Offset in the file of byte `p` of a chain of regular sectors. -/
def addr (ss : Nat) (c : List Nat) (p : Nat) : Nat := (c.getD (p / ss) 0 + 1) * ss + p % ss

/-- Offset in the file of byte `p` of a chain `c` of mini sectors; `mc` are the sectors of the mini
stream. -/
def addrM (ss : Nat) (mc c : List Nat) (p : Nat) : Nat :=
  addr ss mc (c.getD (p / 64) 0 * 64 + p % 64)

@[simp] theorem rd_length (f : Bytes) (loc : Nat → Nat) (p n : Nat) : (rd f loc p n).length = n := by
  simp [rd]

@[simp] theorem rd_zero (f : Bytes) (loc : Nat → Nat) (p : Nat) : rd f loc p 0 = [] := rfl

theorem rd_add (f : Bytes) (loc : Nat → Nat) (p a b : Nat) :
    rd f loc p (a + b) = rd f loc p a ++ rd f loc (p + a) b := by
  have := List.range'_append (s := p) (m := a) (n := b) (step := 1)
  rw [Nat.one_mul] at this
  simp only [rd]
  rw [← this, List.map_append]

theorem rd_getElem? (f : Bytes) (loc : Nat → Nat) (p n j : Nat) :
    (rd f loc p n)[j]? = if j < n then some (byteAt f (loc (p + j))) else none := by
  simp only [rd, List.getElem?_map]
  by_cases h : j < n
  · simp [h, List.getElem?_range']
  · simp [h, List.getElem?_range']

theorem rd_congr {f f' : Bytes} {loc loc' : Nat → Nat} {p n : Nat}
    (h : ∀ q, p ≤ q → q < p + n → byteAt f (loc q) = byteAt f' (loc' q)) :
    rd f loc p n = rd f' loc' p n := by
  simp only [rd]
  apply List.map_congr_left
  intro q hq
  rw [List.mem_range'_1] at hq
  exact h q hq.1 hq.2

theorem byteAt_eq (f : Bytes) (i : Nat) : byteAt f i = (f[i]?).getD 0 := by
  simp [byteAt, List.getD]

theorem byteAt_pwrite (f : Bytes) (pos : Nat) (d : Bytes) (i : Nat) :
    byteAt (pwrite f pos d) i =
      if pos ≤ i ∧ i < pos + d.length then d.getD (i - pos) 0 else byteAt f i := by
  have hl : ((f ++ List.replicate (pos - f.length) 0).take pos).length = pos := by
    simp; omega
  simp only [byteAt_eq, pwrite, List.getD]
  by_cases h1 : i < pos
  · rw [List.append_assoc, List.getElem?_append_left (by omega), if_neg (by omega),
      List.getElem?_take, if_pos h1]
    by_cases h2 : i < f.length
    · rw [List.getElem?_append_left h2]
    · rw [List.getElem?_append_right (by omega), List.getElem?_replicate]
      rw [List.getElem?_eq_none (by omega)]
      split <;> rfl
  · rw [List.append_assoc, List.getElem?_append_right (by omega), hl]
    by_cases h2 : i < pos + d.length
    · rw [if_pos ⟨by omega, h2⟩, List.getElem?_append_left (by omega)]
    · rw [if_neg (by omega), List.getElem?_append_right (by omega), List.getElem?_drop]
      congr 2; omega

theorem preadPad_eq (f : Bytes) (pos n : Nat) : preadPad f pos n = rd f id pos n := by
  apply List.ext_getElem?
  intro j
  simp only [rd_getElem?, preadPad, id, byteAt_eq]
  by_cases h : j < ((f.drop pos).take n).length
  · rw [List.getElem?_append_left h]
    have h' := h
    simp at h'
    rw [List.getElem?_take, if_pos (by omega), List.getElem?_drop, if_pos (by omega),
      List.getElem?_eq_getElem (by omega)]
    rfl
  · rw [List.getElem?_append_right (by omega), List.getElem?_replicate]
    simp only [List.length_take, List.length_drop] at h ⊢
    by_cases h2 : j < n
    · rw [if_pos (by omega), if_pos h2, List.getElem?_eq_none (by omega)]; rfl
    · rw [if_neg (by omega), if_neg h2]

/-- The cached sectors are those of the file. -/
def Coh (s : Fs) : Prop := Lru.CacheOk 512 (fun sid d => d = sector s.f s.ss sid) s.cache

theorem readSector_spec {s : Fs} (h : Coh s) (sid : Nat) :
    ∃ c, readSector s sid = (sector s.f s.ss sid, { s with cache := c }) ∧ Coh { s with cache := c } := by
  unfold readSector
  have hg := h.get sid
  rcases h.getVal sid with hv | ⟨v, hv, hp⟩
  · refine ⟨Lru.set (Lru.get s.cache sid).1 sid (sector s.f s.ss sid), ?_, ?_⟩
    · simp only [hv, preadPad_eq]; rfl
    · exact Lru.CacheOk.set hg sid _ rfl
  · refine ⟨(Lru.get s.cache sid).1, ?_, ?_⟩
    · simp only [hv, hp]
    · exact hg

theorem slice_sector {f : Bytes} {ss sid off k p : Nat} {loc : Nat → Nat} (hk : off + k ≤ ss)
    (hl : ∀ j < k, loc (p + j) = (sid + 1) * ss + off + j) :
    sliceK (sector f ss sid) off k = .ok (rd f loc p k) := by
  have e : slice (sector f ss sid) off (off + k) = rd f loc p k := by
    apply List.ext_getElem?
    intro j
    simp only [slice, sector, rd_getElem?, List.getElem?_take, List.getElem?_drop, id]
    by_cases h : j < k
    · rw [if_pos (by omega), if_pos (by omega), if_pos h, hl j h]
      congr 2; omega
    · rw [if_neg (by omega), if_neg h]
  simp [sliceK, e]

theorem addr_block {ss : Nat} {c : List Nat} {i off sid : Nat} (hss : 0 < ss)
    (hi : c[i]? = some sid) (j : Nat) (hj : off + j < ss) :
    addr ss c (i * ss + off + j) = (sid + 1) * ss + off + j := by
  have h1 : (i * ss + off + j) / ss = i := by
    rw [Nat.add_assoc, Nat.mul_comm, Nat.mul_add_div hss, Nat.div_eq_of_lt hj, Nat.add_zero]
  have h2 : (i * ss + off + j) % ss = off + j := by
    rw [Nat.add_assoc, Nat.mul_comm, Nat.mul_add_mod, Nat.mod_eq_of_lt hj]
  simp only [addr, h1, h2, List.getD, hi, Option.getD_some]
  omega

theorem idx_ok {l : List Nat} {i x : Nat} (h : l[i]? = some x) : idx l i = .ok x := by
  simp [idx, h]

theorem readBig_spec (n : Nat) : ∀ (s : Fs) (chain : List Nat) (i off : Nat), Coh s → 0 < s.ss →
    off < s.ss → i * s.ss + off + n ≤ chain.length * s.ss →
    ∃ c, readBig s chain i off n =
      .ok (rd s.f (addr s.ss chain) (i * s.ss + off) n, { s with cache := c }) ∧
      Coh { s with cache := c } := by
  induction n using Nat.strongRecOn with
  | _ n ih =>
  intro s chain i off hc hss hoff hn
  rw [readBig]
  by_cases h0 : n = 0
  · subst h0; exact ⟨s.cache, by simp, hc⟩
  · rw [if_neg h0]
    have hi : i < chain.length := by
      apply Nat.lt_of_mul_lt_mul_right (a := s.ss); omega
    obtain ⟨sid, hsid⟩ : ∃ sid, chain[i]? = some sid := ⟨_, List.getElem?_eq_getElem hi⟩
    obtain ⟨c1, e1, hc1⟩ := readSector_spec hc sid
    rw [idx_ok hsid]
    simp only [bind, Except.bind, e1]
    rw [dif_neg (by omega)]
    have hk : off + min n (s.ss - off) ≤ s.ss := by omega
    rw [slice_sector hk (fun j hj => addr_block hss hsid j (by omega))]
    simp only
    obtain ⟨c2, e2, hc2⟩ := ih (n - min n (s.ss - off)) (by omega) { s with cache := c1 } chain
      (i + 1) 0 hc1 hss hss (by
        simp only
        have h1 : (i + 1) * s.ss = i * s.ss + s.ss := by rw [Nat.add_mul, Nat.one_mul]
        have h2 : (i + 1) * s.ss ≤ chain.length * s.ss := Nat.mul_le_mul_right _ hi
        omega)
    rw [e2]
    refine ⟨c2, ?_, hc2⟩
    simp only
    congr 2
    by_cases hlt : n ≤ s.ss - off
    · rw [Nat.min_eq_left hlt, Nat.sub_self]; simp
    · rw [Nat.min_eq_right (by omega)]
      have h1 : (i + 1) * s.ss = i * s.ss + s.ss := by rw [Nat.add_mul, Nat.one_mul]
      have h2 : (i + 1) * s.ss + 0 = i * s.ss + off + (s.ss - off) := by omega
      rw [h2, ← rd_add]
      congr 1; omega

theorem addrM_block {ss : Nat} {mc c : List Nat} {i off m sid : Nat} (hss : 64 ∣ ss) (h0 : 0 < ss)
    (hi : c[i]? = some m) (hoff : off < 64) (hm : mc[(m * 64 + off) / ss]? = some sid)
    (j : Nat) (hj : off + j < 64) :
    addrM ss mc c (i * 64 + off + j) = (sid + 1) * ss + (m * 64 + off) % ss + j := by
  have h1 : (i * 64 + off + j) / 64 = i := by omega
  have h2 : (i * 64 + off + j) % 64 = off + j := by omega
  obtain ⟨t, rfl⟩ := hss
  have ht : 0 < t := by omega
  have h3 : m * 64 + off = (m * 64 + off) / (64 * t) * (64 * t) + (m * 64 + off) % (64 * t) := by
    rw [Nat.mul_comm ((m * 64 + off) / (64 * t))]; exact (Nat.div_add_mod _ _).symm
  have h5 : (m * 64 + off) % (64 * t) = 64 * (m % t) + off := by
    rw [Nat.mod_mul]
    have : (m * 64 + off) % 64 = off := by omega
    have h' : (m * 64 + off) / 64 = m := by omega
    rw [this, h']; omega
  have h4 : (m * 64 + off) % (64 * t) + j < 64 * t := by
    have := Nat.mod_lt m ht
    have : 64 * (m % t + 1) ≤ 64 * t := Nat.mul_le_mul_left _ this
    omega
  have := addr_block h0 hm j h4
  rw [← h3] at this
  simp only [addrM, h1, h2, List.getD, hi, Option.getD_some]
  rw [← Nat.add_assoc]; exact this

theorem fetch_spec {s : Fs} (hc : Coh s) (prev : Option (Nat × Bytes)) (sid : Nat)
    (hprev : ∀ p ∈ prev, p.2 = sector s.f s.ss p.1) :
    ∃ c, fetch s prev sid = (sector s.f s.ss sid, { s with cache := c }) ∧
      Coh { s with cache := c } := by
  unfold fetch
  cases prev with
  | none => exact readSector_spec hc sid
  | some pd =>
    obtain ⟨p, d⟩ := pd
    simp only
    split
    · rename_i hp; subst hp
      have hd : d = sector s.f s.ss p := hprev (p, d) rfl
      exact ⟨s.cache, by rw [hd], hc⟩
    · exact readSector_spec hc sid

theorem readMini_spec (n : Nat) : ∀ (s : Fs) (chain : List Nat) (i off : Nat)
    (prev : Option (Nat × Bytes)), Coh s → 64 ∣ s.ss → 0 < s.ss → off < 64 →
    i * 64 + off + n ≤ chain.length * 64 →
    (∀ m ∈ chain, m < s.miniChain.length * (s.ss / 64)) →
    (∀ p ∈ prev, p.2 = sector s.f s.ss p.1) →
    ∃ c, readMini s chain i off n prev =
      .ok (rd s.f (addrM s.ss s.miniChain chain) (i * 64 + off) n, { s with cache := c }) ∧
      Coh { s with cache := c } := by
  induction n using Nat.strongRecOn with
  | _ n ih =>
  intro s chain i off prev hc hdvd hss hoff hn hcov hprev
  rw [readMini]
  by_cases h0 : n = 0
  · subst h0; exact ⟨s.cache, by simp, hc⟩
  · rw [if_neg h0]
    have hi : i < chain.length := by omega
    obtain ⟨m, hm⟩ : ∃ m, chain[i]? = some m := ⟨_, List.getElem?_eq_getElem hi⟩
    have hmlt := hcov m (List.mem_of_getElem? hm)
    have hq : (m * 64 + off) / s.ss < s.miniChain.length := by
      rw [Nat.div_lt_iff_lt_mul hss]
      obtain ⟨t, ht⟩ := hdvd
      rw [ht] at hmlt ⊢
      rw [Nat.mul_div_cancel_left t (by omega)] at hmlt
      have : (m + 1) * 64 ≤ s.miniChain.length * t * 64 := Nat.mul_le_mul_right _ hmlt
      rw [Nat.mul_comm 64 t, ← Nat.mul_assoc]; omega
    obtain ⟨sid, hsid⟩ : ∃ sid, s.miniChain[(m * 64 + off) / s.ss]? = some sid :=
      ⟨_, List.getElem?_eq_getElem hq⟩
    rw [idx_ok hm]
    simp only [bind, Except.bind]
    rw [idx_ok hsid]
    simp only
    obtain ⟨c1, e1, hc1⟩ := fetch_spec hc prev sid hprev
    rw [e1]
    simp only
    rw [dif_neg (by omega)]
    have hblk := fun j hj => addrM_block (mc := s.miniChain) hdvd hss hm hoff hsid j hj
    have hk : (m * 64 + off) % s.ss + min n (64 - off) ≤ s.ss := by
      obtain ⟨t, ht⟩ := hdvd
      rw [ht, Nat.mod_mul]
      have ht0 : 0 < t := by omega
      have h1 : (m * 64 + off) % 64 = off := by omega
      have h2 : (m * 64 + off) / 64 = m := by omega
      rw [h1, h2]
      have := Nat.mod_lt m ht0
      have : 64 * (m % t + 1) ≤ 64 * t := Nat.mul_le_mul_left _ this
      omega
    rw [slice_sector hk (fun j hj => hblk j (by omega))]
    simp only
    obtain ⟨c2, e2, hc2⟩ := ih (n - min n (64 - off)) (by omega) { s with cache := c1 } chain
      (i + 1) 0 (some (sid, sector s.f s.ss sid)) hc1 hdvd hss (by omega) (by omega) hcov (by
        intro p hp; cases hp; rfl)
    rw [e2]
    refine ⟨c2, ?_, hc2⟩
    simp only
    congr 2
    by_cases hlt : n ≤ 64 - off
    · rw [Nat.min_eq_left hlt, Nat.sub_self]; simp
    · rw [Nat.min_eq_right (by omega)]
      have h2 : (i + 1) * 64 + 0 = i * 64 + off + (64 - off) := by omega
      rw [h2, ← rd_add]
      congr 1; omega

/-! ## Writing -/

theorem pokeSector_spec {s : Fs} (h : Coh s) (sid off : Nat) (d : Bytes) (hoff : off + d.length ≤ s.ss) :
    ∃ c, pokeSector s sid off d =
        .ok { s with cache := c, f := pwrite s.f ((sid + 1) * s.ss + off) d } ∧
      Coh { s with cache := c, f := pwrite s.f ((sid + 1) * s.ss + off) d } := by
  have key : ∀ c, Lru.contains c sid = false →
      Lru.CacheOk 512 (fun sid d => d = sector s.f s.ss sid) c →
      Coh { s with cache := c, f := pwrite s.f ((sid + 1) * s.ss + off) d } := by
    intro c hc ho
    apply ho.mono
    intro k v hk hv
    subst hv
    have hne : k ≠ sid := by rintro rfl; rw [hc] at hk; cases hk
    simp only [sector]
    apply rd_congr
    intro q h1 h2
    simp only [id, byteAt_pwrite]
    rw [if_neg]
    intro h3
    rcases Nat.lt_or_gt_of_ne hne with h | h
    · have : (k + 1 + 1) * s.ss ≤ (sid + 1) * s.ss := Nat.mul_le_mul_right _ (by omega)
      rw [Nat.add_mul (k + 1) 1, Nat.one_mul] at this
      omega
    · have : (sid + 1 + 1) * s.ss ≤ (k + 1) * s.ss := Nat.mul_le_mul_right _ (by omega)
      rw [Nat.add_mul (sid + 1) 1, Nat.one_mul] at this
      omega
  unfold pokeSector
  cases hc : Lru.contains s.cache sid with
  | true =>
    obtain ⟨c', h1, h2, h3⟩ := Lru.CacheOk.del h sid hc
    refine ⟨c', by simp [h1, bind, Except.bind], key c' h2 h3⟩
  | false => exact ⟨s.cache, by simp [bind, Except.bind], key _ hc h⟩

/-- Nothing but the bytes at the given places changed. -/
def Wrote (f f' : Bytes) (loc : Nat → Nat) (p : Nat) (data : Bytes) : Prop :=
  (∀ k < data.length, byteAt f' (loc (p + k)) = data.getD k 0) ∧
  ∀ i, (∀ k < data.length, i ≠ loc (p + k)) → byteAt f' i = byteAt f i

theorem Wrote.step {f f1 f2 : Bytes} {loc : Nat → Nat} {p k : Nat} {data : Bytes}
    (hinj : ∀ a b, p ≤ a → a < p + data.length → p ≤ b → b < p + data.length → loc a = loc b → a = b)
    (hk : k ≤ data.length) (h1 : Wrote f f1 loc p (data.take k))
    (h2 : Wrote f1 f2 loc (p + k) (data.drop k)) : Wrote f f2 loc p data := by
  constructor
  · intro j hj
    by_cases hjk : j < k
    · rw [h2.2 _ (by
        intro x hx he
        simp at hx
        have := hinj _ _ (by omega) (by omega) (by omega) (by omega) he
        omega)]
      rw [h1.1 j (by simp; omega)]
      simp [List.getD, List.getElem?_take, hjk]
    · have := h2.1 (j - k) (by simp; omega)
      have e : p + k + (j - k) = p + j := by omega
      rw [e] at this
      rw [this]
      simp only [List.getD, List.getElem?_drop]
      congr 2; omega
  · intro i hi
    rw [h2.2 i (by
      intro x hx
      simp at hx
      have := hi (k + x) (by omega)
      rwa [← Nat.add_assoc] at this), h1.2 i (by
      intro x hx
      simp at hx
      exact hi x (by omega))]

theorem Wrote.block {f : Bytes} {loc : Nat → Nat} {p a : Nat} {d : Bytes}
    (hl : ∀ j < d.length, loc (p + j) = a + j) : Wrote f (pwrite f a d) loc p d := by
  constructor
  · intro k hk
    rw [byteAt_pwrite, hl k hk, if_pos (by omega)]
    congr 1; omega
  · intro i hi
    rw [byteAt_pwrite, if_neg]
    intro h
    apply hi (i - a) (by omega)
    rw [hl _ (by omega)]; omega

theorem writeBig_spec (n : Nat) : ∀ (s : Fs) (chain : List Nat) (i off : Nat) (data : Bytes),
    data.length = n → Coh s → 0 < s.ss → off < s.ss →
    i * s.ss + off + n ≤ chain.length * s.ss →
    (∀ a b, a < chain.length * s.ss → b < chain.length * s.ss →
      addr s.ss chain a = addr s.ss chain b → a = b) →
    ∃ c f', writeBig s chain i off data = .ok { s with cache := c, f := f' } ∧
      Coh { s with cache := c, f := f' } ∧
      Wrote s.f f' (addr s.ss chain) (i * s.ss + off) data := by
  induction n using Nat.strongRecOn with
  | _ n ih =>
  intro s chain i off data hd hc hss hoff hn hinj
  rw [writeBig]
  by_cases h0 : data.length = 0
  · rw [if_pos h0]
    have : data = [] := List.length_eq_zero_iff.mp h0
    subst this
    exact ⟨s.cache, s.f, rfl, hc, by simp [Wrote]⟩
  · rw [if_neg h0]
    have hi : i < chain.length := by
      apply Nat.lt_of_mul_lt_mul_right (a := s.ss); omega
    obtain ⟨sid, hsid⟩ : ∃ sid, chain[i]? = some sid := ⟨_, List.getElem?_eq_getElem hi⟩
    rw [idx_ok hsid]
    simp only [bind, Except.bind]
    rw [dif_neg (by omega)]
    have hlk : (data.take (min data.length (s.ss - off))).length = min data.length (s.ss - off) := by
      simp
    obtain ⟨c1, e1, hc1⟩ := pokeSector_spec hc sid off (data.take (min data.length (s.ss - off)))
      (by rw [hlk]; omega)
    rw [e1]
    simp only
    have h1 : (i + 1) * s.ss = i * s.ss + s.ss := by rw [Nat.add_mul, Nat.one_mul]
    have h2 : (i + 1) * s.ss ≤ chain.length * s.ss := Nat.mul_le_mul_right _ hi
    obtain ⟨c2, f2, e2, hc2, hw⟩ := ih (n - min data.length (s.ss - off)) (by omega)
      { s with cache := c1, f := pwrite s.f ((sid + 1) * s.ss + off) (data.take (min data.length (s.ss - off))) }
      chain (i + 1) 0 (data.drop (min data.length (s.ss - off))) (by simp [hd]) hc1 hss hss
      (by simp only; omega) hinj
    refine ⟨c2, f2, e2, hc2, ?_⟩
    simp only at hw
    apply Wrote.step (f1 := _) (k := min data.length (s.ss - off)) _ (by omega)
    · exact Wrote.block (fun j hj => addr_block hss hsid j (by rw [hlk] at hj; omega))
    · by_cases hlt : data.length ≤ s.ss - off
      · rw [Nat.min_eq_left hlt] at hw ⊢
        simp only [List.drop_length] at hw ⊢
        exact ⟨by simp, fun i _ => hw.2 i (by simp)⟩
      · have h3 : (i + 1) * s.ss + 0 = i * s.ss + off + (s.ss - off) := by omega
        rw [h3] at hw
        have h4 : min data.length (s.ss - off) = s.ss - off := by omega
        rw [h4] at hw ⊢
        exact hw
    · intro a b ha1 ha2 hb1 hb2 he
      exact hinj a b (by omega) (by omega) he

theorem writeMini_spec (n : Nat) : ∀ (s : Fs) (chain : List Nat) (i off : Nat) (data : Bytes),
    data.length = n → Coh s → 64 ∣ s.ss → 0 < s.ss → off < 64 →
    i * 64 + off + n ≤ chain.length * 64 →
    (∀ m ∈ chain, m < s.miniChain.length * (s.ss / 64)) →
    (∀ a b, a < chain.length * 64 → b < chain.length * 64 →
      addrM s.ss s.miniChain chain a = addrM s.ss s.miniChain chain b → a = b) →
    ∃ c f', writeMini s chain i off data = .ok { s with cache := c, f := f' } ∧
      Coh { s with cache := c, f := f' } ∧
      Wrote s.f f' (addrM s.ss s.miniChain chain) (i * 64 + off) data := by
  induction n using Nat.strongRecOn with
  | _ n ih =>
  intro s chain i off data hd hc hdvd hss hoff hn hcov hinj
  rw [writeMini]
  by_cases h0 : data.length = 0
  · rw [if_pos h0]
    have : data = [] := List.length_eq_zero_iff.mp h0
    subst this
    exact ⟨s.cache, s.f, rfl, hc, by simp [Wrote]⟩
  · rw [if_neg h0]
    have hi : i < chain.length := by omega
    obtain ⟨m, hm⟩ : ∃ m, chain[i]? = some m := ⟨_, List.getElem?_eq_getElem hi⟩
    have hmlt := hcov m (List.mem_of_getElem? hm)
    have hq : (m * 64 + off) / s.ss < s.miniChain.length := by
      rw [Nat.div_lt_iff_lt_mul hss]
      obtain ⟨t, ht⟩ := hdvd
      rw [ht] at hmlt ⊢
      rw [Nat.mul_div_cancel_left t (by omega)] at hmlt
      have : (m + 1) * 64 ≤ s.miniChain.length * t * 64 := Nat.mul_le_mul_right _ hmlt
      rw [Nat.mul_comm 64 t, ← Nat.mul_assoc]; omega
    obtain ⟨sid, hsid⟩ : ∃ sid, s.miniChain[(m * 64 + off) / s.ss]? = some sid :=
      ⟨_, List.getElem?_eq_getElem hq⟩
    rw [idx_ok hm]
    simp only [bind, Except.bind]
    rw [idx_ok hsid]
    simp only
    rw [dif_neg (by omega)]
    have hblk := fun j hj => addrM_block (mc := s.miniChain) hdvd hss hm hoff hsid j hj
    have hk : (m * 64 + off) % s.ss + min data.length (64 - off) ≤ s.ss := by
      obtain ⟨t, ht⟩ := hdvd
      rw [ht, Nat.mod_mul]
      have ht0 : 0 < t := by omega
      have h1 : (m * 64 + off) % 64 = off := by omega
      have h2 : (m * 64 + off) / 64 = m := by omega
      rw [h1, h2]
      have := Nat.mod_lt m ht0
      have : 64 * (m % t + 1) ≤ 64 * t := Nat.mul_le_mul_left _ this
      omega
    have hlk : (data.take (min data.length (64 - off))).length = min data.length (64 - off) := by
      simp
    obtain ⟨c1, e1, hc1⟩ := pokeSector_spec hc sid ((m * 64 + off) % s.ss)
      (data.take (min data.length (64 - off))) (by rw [hlk]; omega)
    rw [e1]
    simp only
    obtain ⟨c2, f2, e2, hc2, hw⟩ := ih (n - min data.length (64 - off)) (by omega)
      { s with
        cache := c1
        f := pwrite s.f ((sid + 1) * s.ss + (m * 64 + off) % s.ss) (data.take (min data.length (64 - off))) }
      chain (i + 1) 0 (data.drop (min data.length (64 - off))) (by simp [hd]) hc1 hdvd hss (by omega)
      (by omega) hcov hinj
    refine ⟨c2, f2, e2, hc2, ?_⟩
    simp only at hw
    apply Wrote.step (f1 := _) (k := min data.length (64 - off)) _ (by omega)
    · exact Wrote.block (fun j hj => hblk j (by rw [hlk] at hj; omega))
    · by_cases hlt : data.length ≤ 64 - off
      · rw [Nat.min_eq_left hlt] at hw ⊢
        simp only [List.drop_length] at hw ⊢
        exact ⟨by simp, fun i _ => hw.2 i (by simp)⟩
      · have h3 : (i + 1) * 64 + 0 = i * 64 + off + (64 - off) := by omega
        rw [h3] at hw
        have h4 : min data.length (64 - off) = 64 - off := by omega
        rw [h4] at hw ⊢
        exact hw
    · intro a b ha1 ha2 hb1 hb2 he
      exact hinj a b (by omega) (by omega) he

end Verif.Fat
