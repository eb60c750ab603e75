import Verif.Model.Import
import Verif.Props.C41_Dnx
/-!
# C59: imported essence
-/
namespace Verif.Import
open Verif.Dnx

/-! ## Reading in pieces -/

theorem chunks_flatten {n : Nat} (h : 0 < n) (data : Bytes) : (chunks n data).flatten = data := by
  obtain ⟨k, hk⟩ : ∃ k, data.length = k := ⟨_, rfl⟩
  induction k using Nat.strongRecOn generalizing data with
  | ind k ih =>
    rw [chunks]
    split
    · rename_i hc
      rcases hc with h0 | rfl
      · omega
      · rfl
    · rename_i hc
      simp only [not_or] at hc
      have : 0 < data.length := List.length_pos_iff.2 hc.2
      rw [List.flatten_cons, ih (data.drop n).length (by rw [List.length_drop]; omega) _ rfl, List.take_append_drop]

theorem chunks_get {n : Nat} (h : 0 < n) (data : Bytes) : ∀ k, (chunks n data)[k]? = if k * n < data.length then some ((data.drop (k * n)).take n) else none := by
  obtain ⟨m, hm⟩ : ∃ k, data.length = k := ⟨_, rfl⟩
  induction m using Nat.strongRecOn generalizing data with
  | ind m ih =>
    intro k
    rw [chunks]
    split
    · rename_i hc
      rcases hc with h0 | rfl
      · omega
      · simp
    · rename_i hc
      simp only [not_or] at hc
      have hp : 0 < data.length := List.length_pos_iff.2 hc.2
      cases k with
      | zero => simp [hp]
      | succ k =>
        rw [List.getElem?_cons_succ, ih (data.drop n).length (by rw [List.length_drop]; omega) _ rfl, List.length_drop, List.drop_drop]
        have e : n + k * n = (k + 1) * n := by rw [Nat.add_mul]; omega
        rw [e]
        have : (k * n < data.length - n) ↔ ((k + 1) * n < data.length) := by rw [Nat.add_mul]; omega
        simp only [this]

theorem chunks_length {n : Nat} (h : 0 < n) (data : Bytes) : (chunks n data).length = (data.length + n - 1) / n := by
  have hg := chunks_get h data
  have key : ∀ k, k < (chunks n data).length ↔ k * n < data.length := by
    intro k
    have := hg k
    constructor
    · intro hk
      by_cases hc : k * n < data.length
      · exact hc
      · rw [if_neg hc, List.getElem?_eq_none_iff] at this; omega
    · intro hk
      rw [if_pos hk] at this
      exact (List.getElem?_eq_some_iff.1 this).1
  have key2 : ∀ k, k < (data.length + n - 1) / n ↔ k * n < data.length := by
    intro k
    rw [Nat.lt_iff_add_one_le, Nat.le_div_iff_mul_le h, Nat.add_mul]
    omega
  generalize hx : (data.length + n - 1) / n = x at key2
  generalize (chunks n data).length = y at key
  rcases Nat.lt_trichotomy y x with hl | he | hg
  · have := (key y).2 ((key2 y).1 hl); omega
  · exact he
  · have := (key2 x).2 ((key x).1 hg); omega

/-! ## Raw video -/

theorem frameSize_spec (raw : Nat) : raw ≤ frameSize raw ∧ frameSize raw < raw + 8192 ∧ 8192 ∣ frameSize raw := by
  refine ⟨?_, ?_, ⟨_, by rw [frameSize, Nat.mul_comm]⟩⟩ <;> simp only [frameSize] <;> omega

/-- In a list of pieces that are full, except the last, piece `k` is at `k` times the size. -/
theorem piece_at {n : Nat} : ∀ (l : List Bytes) (k : Nat) (c : Bytes), l[k]? = some c → (∀ i d, l[i]? = some d → i + 1 < l.length → d.length = n) → (l.flatten.drop (k * n)).take c.length = c
  | [], _, _, h, _ => by cases h
  | d :: l, 0, c, h, _ => by
    simp only [List.getElem?_cons_zero, Option.some.injEq] at h
    subst h
    simp
  | d :: l, k + 1, c, h, hf => by
    rw [List.getElem?_cons_succ] at h
    have hk := (List.getElem?_eq_some_iff.1 h).1
    have hd : d.length = n := hf 0 d rfl (by simp; omega)
    rw [List.flatten_cons, show (k + 1) * n = n + k * n by rw [Nat.add_mul]; omega, ← hd, ← List.drop_drop, List.drop_left, hd]
    exact piece_at l k c h fun i e hi hlt => hf (i + 1) e (by simpa using hi) (by simp; omega)

/-- The beginning of a file up to a multiple, and the frame after it. -/
theorem C59_raw_frames (file : Bytes) (width height : Nat) (sizes : List Nat) (h : 0 < rawFrameSize width height sizes) (k : Nat) (hk : k < (importRaw file width height sizes).length) :
    let r := rawFrameSize width height sizes
    let e := importRaw file width height sizes
    let c := (file.drop (k * r)).take r
    (e.stream.drop (k * e.frameSize)).take (c.length + (e.frameSize - r)) = c ++ List.replicate (e.frameSize - r) 0 := by
  intro r e c
  have hk' : k < (chunks r file).length := hk
  have hg := chunks_get h file k
  have hkn : k * r < file.length := by
    by_cases hc : k * r < file.length
    · exact hc
    · rw [if_neg hc, List.getElem?_eq_none_iff] at hg; exact absurd hk' (Nat.not_lt.2 hg)
  rw [if_pos hkn] at hg
  have hfs := frameSize_spec r
  have := piece_at (n := e.frameSize) ((chunks r file).map fun c => c ++ List.replicate (e.frameSize - r) 0) k (c ++ List.replicate (e.frameSize - r) 0) (by rw [List.getElem?_map, hg]; rfl) (by
    intro i d hi hlt
    rw [List.getElem?_map] at hi
    have hi2 := chunks_get h file i
    have hj := chunks_get h file (i + 1)
    have hlt' : i + 1 < (chunks r file).length := by simpa using hlt
    by_cases hc : (i + 1) * r < file.length
    · have hc' : i * r < file.length := by rw [Nat.add_mul] at hc; omega
      rw [if_pos hc'] at hi2
      rw [hi2] at hi
      simp only [Option.map_some, Option.some.injEq] at hi
      rw [← hi, List.length_append, List.length_take, List.length_drop, List.length_replicate]
      have h1 : (i + 1) * r = i * r + r := by rw [Nat.add_mul, Nat.one_mul]
      have h2 : r ≤ e.frameSize := hfs.1
      have h3 : min r (file.length - i * r) = r := Nat.min_eq_left (by omega)
      calc min r (file.length - i * r) + (e.frameSize - r) = r + (e.frameSize - r) := by rw [h3]
        _ = e.frameSize := by omega
    · rw [if_neg hc, List.getElem?_eq_none_iff] at hj
      exact absurd hlt' (Nat.not_lt.2 hj))
  rw [List.length_append, List.length_replicate] at this
  exact this

/-- The number of frames, and the sizes, for a file of full frames. -/
theorem C59_raw_sizes (file : Bytes) (width height : Nat) (sizes : List Nat) (h : 0 < rawFrameSize width height sizes) :
    let r := rawFrameSize width height sizes
    let e := importRaw file width height sizes
    e.length = (file.length + r - 1) / r ∧ e.segment = e.length ∧ e.imageSize = e.length * e.frameSize ∧
      (e.stream.length = e.imageSize ↔ r ∣ file.length) := by
  intro r e
  have hl : e.length = (file.length + r - 1) / r := chunks_length h file
  refine ⟨hl, rfl, rfl, ?_⟩
  have hfs := frameSize_spec r
  have hs : e.stream.length = file.length + e.length * (e.frameSize - r) := by
    have hfl := congrArg List.length (chunks_flatten h file)
    have gen : ∀ (l : List Bytes) (n : Nat), ((l.map fun c => c ++ List.replicate n (0 : UInt8)).flatten).length = l.flatten.length + l.length * n := by
      intro l n
      induction l with
      | nil => simp
      | cons c l ih => simp only [List.map_cons, List.flatten_cons, List.length_append, List.length_replicate, List.length_cons, ih, Nat.add_mul]; omega
    have := gen (chunks r file) (e.frameSize - r)
    rw [hfl] at this
    exact this
  have himg : e.imageSize = e.length * (e.frameSize - r) + e.length * r := by
    have : e.frameSize = (e.frameSize - r) + r := by have : e.frameSize = frameSize r := rfl; omega
    calc e.imageSize = e.length * e.frameSize := rfl
      _ = e.length * ((e.frameSize - r) + r) := by rw [← this]
      _ = _ := Nat.mul_add _ _ _
  rw [hs, himg]
  constructor
  · intro he
    exact ⟨e.length, by rw [Nat.mul_comm]; omega⟩
  · rintro ⟨q, hq⟩
    have : e.length = q := by
      rw [hl, hq]
      have : r * q + r - 1 = r * q + (r - 1) := by omega
      rw [this, Nat.mul_add_div h, Nat.div_eq_of_lt (by omega)]
      omega
    rw [this, hq, Nat.mul_comm]; omega

/-- Two frames of 2×2 pixels with 24 bits. -/
theorem C59_raw_witness : rawFrameSize 2 2 [8, 8, 8] = 12 ∧ (importRaw (List.replicate 24 7) 2 2 [8, 8, 8]).length = 2 ∧ (importRaw (List.replicate 24 7) 2 2 [8, 8, 8]).stream.length = 16384 := by
  have h : 0 < rawFrameSize 2 2 [8, 8, 8] := by decide
  obtain ⟨h1, _, h3, h4⟩ := C59_raw_sizes (List.replicate 24 7) 2 2 [8, 8, 8] h
  have e1 : (importRaw (List.replicate 24 7) 2 2 [8, 8, 8]).length = 2 := by rw [h1]; decide
  refine ⟨by decide, e1, ?_⟩
  rw [h4.2 ⟨2, by decide⟩, h3, e1]
  decide

/-- A last frame that is cut off is counted, but the stream is shorter than `ImageSize` says. -/
theorem C59_raw_counterexample : (importRaw (List.replicate 13 7) 2 2 [8, 8, 8]).length = 2 ∧
    (importRaw (List.replicate 13 7) 2 2 [8, 8, 8]).stream.length ≠ (importRaw (List.replicate 13 7) 2 2 [8, 8, 8]).imageSize := by
  have h : 0 < rawFrameSize 2 2 [8, 8, 8] := by decide
  obtain ⟨h1, _, _, h4⟩ := C59_raw_sizes (List.replicate 13 7) 2 2 [8, 8, 8] h
  refine ⟨by rw [h1]; decide, fun e => ?_⟩
  have := h4.1 e
  revert this; decide

/-! ## Audio -/

/-- A file with samples of 2 or 3 bytes is imported: the essence is the data of the file, and the length the number of frames. -/
theorem C59_wav (w : Wav) (hr : 0 < w.rate) (hc : 0 < w.channels) (hb : 8 < w.bits ∧ w.bits ≤ 24) :
    ∃ s, importWav w none = .ok s ∧ s.stream = w.data ∧ s.channels = w.channels ∧ s.rate = w.rate ∧ w.bits ≤ s.bits ∧ s.bits < w.bits + 8 ∧ 8 ∣ s.bits ∧
      s.segment = s.length ∧ s.length = w.data.length / (s.channels * (s.bits / 8)) := by
  have h1 : ¬ ((w.bits + 7) / 8 ≠ 2 ∧ (w.bits + 7) / 8 ≠ 3) := by omega
  have hpos : 0 < w.channels * ((w.bits + 7) / 8) := Nat.mul_pos hc (by omega)
  refine ⟨_, by rw [importWav, if_neg h1, if_neg (Nat.pos_iff_ne_zero.1 hpos), if_neg (by omega)], chunks_flatten (Nat.mul_pos hr hpos) _, rfl, rfl, ?_, ?_, ⟨_, Nat.mul_comm _ _⟩, rfl, ?_⟩
  · show w.bits ≤ (w.bits + 7) / 8 * 8; omega
  · show (w.bits + 7) / 8 * 8 < w.bits + 8; omega
  · show w.data.length / (w.channels * ((w.bits + 7) / 8)) = w.data.length / (w.channels * ((w.bits + 7) / 8 * 8 / 8))
    rw [Nat.mul_div_cancel _ (by decide)]

/-- Other files are refused. -/
theorem C59_wav_refused (w : Wav) (n : Option Nat) (h : w.channels = 0 ∨ w.bits ≤ 8 ∨ 24 < w.bits) : ∃ e, importWav w n = .error e := by
  rw [importWav]
  split
  · exact ⟨_, rfl⟩
  · rename_i hw
    rcases h with h | h | h
    · rw [if_pos (by rw [h, Nat.zero_mul])]; exact ⟨_, rfl⟩
    · omega
    · omega

/-- A length that is given is that of the segment, and nothing else changes. -/
theorem C59_wav_length (w : Wav) (s : Sound) (h : importWav w none = .ok s) (n : Nat) (hn : 0 < n) : importWav w (some n) = .ok { s with segment := n } := by
  rw [importWav] at h ⊢
  split at h
  · cases h
  · rename_i hw
    rw [if_neg hw]
    split at h
    · cases h
    · rename_i hz
      rw [if_neg hz]
      split at h
      · cases h
      rename_i hr
      rw [if_neg (by simp only [Option.getD_some]; omega)]
      simp only [Except.ok.injEq] at h
      rw [← h]
      simp [Nat.pos_iff_ne_zero.1 hn]

/-- A file with samples of whole bytes that is imported and exported is the same. -/
theorem C59_wav_export (w : Wav) (hr : 0 < w.rate) (hc : 0 < w.channels) (hb : w.bits = 16 ∨ w.bits = 24) :
    ∃ s, importWav w none = .ok s ∧ exportWav s = w := by
  obtain ⟨s, h1, h2, h3, h4, h5, h6, ⟨q, h7⟩, _⟩ := C59_wav w hr hc (by omega)
  refine ⟨s, h1, ?_⟩
  have hs : s.bits = w.bits := by omega
  have h8 : w.bits / 8 * 8 = w.bits := by omega
  rw [exportWav, h2, h3, h4, hs, chunks_flatten (Nat.mul_pos (Nat.mul_pos hc hr) (by omega)), h8]

/-- Essence that is exported and imported is the same. -/
theorem C59_wav_import (s : Sound) (hr : 0 < s.rate) (hc : 0 < s.channels) (hb : s.bits = 16 ∨ s.bits = 24) :
    ∃ t, importWav (exportWav s) none = .ok t ∧ t.stream = s.stream ∧ t.channels = s.channels ∧ t.rate = s.rate ∧ t.bits = s.bits := by
  have e : exportWav s = ⟨s.channels, s.rate, s.bits, s.stream⟩ := by
    have h8 : s.bits / 8 * 8 = s.bits := by omega
    rw [exportWav, chunks_flatten (Nat.mul_pos (Nat.mul_pos hc hr) (by omega)), h8]
  rw [e]
  obtain ⟨t, h1, h2, h3, h4, h5, h6, ⟨q, h7⟩, _⟩ := C59_wav ⟨s.channels, s.rate, s.bits, s.stream⟩ hr hc (by show 8 < s.bits ∧ s.bits ≤ 24; omega)
  refine ⟨t, h1, h2, h3, h4, ?_⟩
  simp only at h5 h6
  omega

/-- Two frames of two channels with 24 bits. -/
theorem C59_wav_witness : ∃ s, importWav ⟨2, 48000, 24, [1, 2, 3, 4, 5, 6, 7, 8, 9, 10, 11, 12]⟩ none = .ok s ∧ s.length = 2 ∧ s.stream = [1, 2, 3, 4, 5, 6, 7, 8, 9, 10, 11, 12] ∧
    exportWav s = ⟨2, 48000, 24, [1, 2, 3, 4, 5, 6, 7, 8, 9, 10, 11, 12]⟩ := by
  obtain ⟨s, h1, h2⟩ := C59_wav_export ⟨2, 48000, 24, [1, 2, 3, 4, 5, 6, 7, 8, 9, 10, 11, 12]⟩ (by decide) (by decide) (by decide)
  obtain ⟨t, h3, h4, h5, _, h7, h8, ⟨q, h9⟩, _, h10⟩ := C59_wav ⟨2, 48000, 24, [1, 2, 3, 4, 5, 6, 7, 8, 9, 10, 11, 12]⟩ (by decide) (by decide) (by decide)
  rw [h1] at h3
  cases h3
  simp only at h7 h8
  have hb : s.bits = 24 := by omega
  exact ⟨s, h1, by rw [h10, h5, hb]; rfl, h4, h2⟩

/-- A sample rate of 0: with a length that is given, the descriptor says there is a frame, the stream is empty.  Without one the import fails. -/
theorem C59_rate_counterexample : importWav ⟨1, 0, 16, [1, 2]⟩ (some 1) = .ok ⟨1, 0, 16, 1, 1, []⟩ ∧
    importWav ⟨1, 0, 16, [1, 2]⟩ none = .error .zeroDivision := by
  simp [importWav, chunks]

/-! ## DNx -/

/-- Every frame size that is known has a compression. -/
theorem compressions_known (cid w h size : Int) (hs : dnxFrameSize cid w h = .ok size) : cid ∈ compressions := by
  rw [dnxFrameSize] at hs
  split at hs
  · rename_i s hl
    have h1 : ∀ x ∈ dnxhdFrameSizes, x.1 ∈ compressions := by decide +kernel
    obtain ⟨l1, l2, e, _⟩ := List.lookup_eq_some_iff.1 hl
    exact h1 (cid, s) (by rw [e]; simp)
  · split at hs
    · cases hs
    · rename_i r0 r1 hl
      have h1 : ∀ x ∈ dnxhrRatio, x.1 ∈ compressions := by decide +kernel
      obtain ⟨l1, l2, e, _⟩ := List.lookup_eq_some_iff.1 hl
      exact h1 (cid, r0, r1) (by rw [e]; simp)

theorem slice_take (p : Bytes) {i j n : Nat} (h : j ≤ n) : slice (p.take n) i j = slice p i j := by
  simp only [slice, List.drop_take, List.take_take]
  congr 1
  omega

/-- The header of a frame is in its first 640 bytes. -/
theorem header_take (p : Bytes) (n : Nat) (hn : n = 640) (h : n ≤ p.length) : readHeader (p.take n) = readHeader p := by
  have hl : (p.take n).length = n := by rw [List.length_take]; omega
  have h1 : ¬ (p.take n).length < 640 := by omega
  have h2 : ¬ p.length < 640 := by omega
  unfold readHeader
  rw [if_neg h1, if_neg h2, slice_take p (i := 0) (j := 6) (by omega), slice_take p (i := 24) (j := 26) (by omega), slice_take p (i := 26) (j := 28) (by omega),
    slice_take p (i := 40) (j := 44) (by omega), slice_take p (i := 5) (j := 6) (by omega), slice_take p (i := 33) (j := 34) (by omega), slice_take p (i := 44) (j := 45) (by omega)]

/-- Whatever the file: an import ends well when it is split into one piece or more without an exception, never with a missing compression; then the essence is the pieces. -/
theorem C59_dnx (file : Bytes) (n : Option Nat) (p : Bytes) (ps : List Bytes) (h : iterDnx file = (p :: ps, none)) :
    ∃ e, importDnx file n = .ok e ∧ e.stream = (p :: ps).flatten ∧ e.frameSize = p.length ∧ e.length = (p :: ps).length ∧ e.stream <+: file := by
  obtain ⟨cid, w, ht, dp, il, size, h1, h2, _⟩ := C41_pieces file [] p ps (by rw [h]; rfl)
  have hp := C41_prefix file
  rw [h] at hp
  have hl : 640 ≤ p.length := by
    by_cases hc : 640 ≤ p.length
    · exact hc
    · rw [readHeader, if_pos (by rw [List.length_take]; omega)] at h1; cases h1
  rw [header_take p 640 rfl hl] at h1
  refine ⟨_, by rw [importDnx, h]; simp only [h1]; rw [if_pos (compressions_known _ _ _ _ h2)], rfl, rfl, rfl, hp⟩

/-- A file of complete frames, with fewer bytes than a header after them: the essence is the frames, in order, their number is the length of the descriptor and, when none is
given, of the segment, and the sample size is that of the first. -/
theorem C59_dnx_frames (fr : Bytes) (frs : List Bytes) (tail : Bytes) (hf : ∀ x ∈ fr :: frs, Vc3.Frame x) (ht : tail.length < 640) (n : Option Nat) :
    ∃ e, importDnx ((fr :: frs).flatten ++ tail) n = .ok e ∧ e.stream = (fr :: frs).flatten ∧ e.frameSize = fr.length ∧ e.length = (fr :: frs).length ∧
      (n = none → e.segment = (fr :: frs).length) ∧ ∀ k, 0 < k → n = some k → e.segment = k := by
  have h := C41_frames (fr :: frs) tail hf ht
  obtain ⟨e, h1, h2, h3, h4, _⟩ := C59_dnx _ n _ _ h
  refine ⟨e, h1, h2, h3, h4, ?_, ?_⟩
  · rintro rfl
    rw [importDnx, h] at h1
    simp only at h1
    split at h1
    · cases h1
    · split at h1
      · simp only [Except.ok.injEq] at h1; rw [← h1]; rfl
      · cases h1
  · rintro k hk rfl
    rw [importDnx, h] at h1
    simp only at h1
    split at h1
    · cases h1
    · split at h1
      · simp only [Except.ok.injEq] at h1; rw [← h1]; simp [Nat.pos_iff_ne_zero.1 hk]
      · cases h1

/-- Two frames and three bytes. -/
theorem C59_dnx_witness : ∃ e, importDnx ([sample, sample].flatten ++ [1, 2, 3]) none = .ok e ∧ e.stream = [sample, sample].flatten ∧ e.length = 2 ∧ e.segment = 2 := by
  obtain ⟨e, h1, h2, _, h4, h5, _⟩ := C59_dnx_frames sample [sample] [1, 2, 3] (by simp [sample_frame]) (by decide) none
  exact ⟨e, h1, h2, h4, h5 rfl⟩

/-- Without a frame the import fails, and an exception of the splitting is that of the import. -/
theorem C59_dnx_fails (file : Bytes) (n : Option Nat) : (file.length < 640 → importDnx file n = .error .unboundLocal) ∧ ∀ e, (iterDnx file).2 = some e → importDnx file n = .error e := by
  constructor
  · intro h
    have := C41_frames [] file (by simp) h
    rw [List.flatten_nil, List.nil_append] at this
    rw [importDnx, this]
  · intro e h
    rw [importDnx]
    split
    · rename_i e' h'
      rw [h'] at h; simp only [Option.some.injEq] at h; rw [h]
    · rename_i h'; rw [h'] at h; cases h
    · rename_i h'; rw [h'] at h; cases h

/-- The bits of a frame, and less than a byte more, are its bytes. -/
theorem C59_raw_frame_size (width height : Nat) (sizes : List Nat) :
    (sizes.map fun s => s * width * height).sum ≤ 8 * rawFrameSize width height sizes ∧
      8 * rawFrameSize width height sizes < (sizes.map fun s => s * width * height).sum + 8 := by
  unfold rawFrameSize; omega

end Verif.Import
