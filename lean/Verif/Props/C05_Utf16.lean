import Verif.Model.Utf16
/-! # C05: UTF-16 strings survive encoding -/
namespace Verif.Utf16

/-- Encoding succeeds exactly on texts without lone surrogates. -/
theorem C05_encode_ok_iff (s : Str) : (∃ b, encode s = .ok b) ↔ ∀ c ∈ s, Scalar c := by
  constructor
  · induction s with
    | nil => simp
    | cons c cs ih =>
      rintro ⟨b, hb⟩
      simp only [encode, encodeRaw, bind, Except.bind, pure, Except.pure] at hb
      by_cases hc : Scalar c
      · intro x hx
        rcases List.mem_cons.mp hx with rfl | hx
        · exact hc
        · refine ih ?_ x hx
          cases h : encodeRaw cs with
          | error e => rw [h] at hb; by_cases h1 : c < 65536 <;> simp [units, hc, h1] at hb
          | ok b' => exact ⟨b' ++ [0, 0], by simp [encode, h, bind, Except.bind, pure, Except.pure]⟩
      · simp [units, hc] at hb
  · intro h
    obtain ⟨b, hb, _, _⟩ := decodeRaw_encodeRaw true h
    exact ⟨b ++ [0, 0], by simp [encode, hb, bind, Except.bind, pure, Except.pure]⟩

/-- A text without lone surrogates is stored, and what is read back is the part before the first U+0000:
the whole text when it contains none.  Bytes following the terminator do not matter as long as they
decode at all. -/
theorem C05_string {s : Str} (h : ∀ c ∈ s, Scalar c) :
    ∃ b, encode s = .ok b ∧ decode b = .ok (s.takeWhile (· ≠ 0)) ∧ (0 ∉ s → decode b = .ok s) := by
  obtain ⟨b, hb, _, hd⟩ := decodeRaw_encodeRaw false h
  have e : decode (b ++ [0, 0]) = .ok (s.takeWhile (· ≠ 0)) := by
    have h0 : decodeRaw false [0, 0] = .ok [0] := rfl
    simp only [decode, hd, h0, bind, Except.bind, pure, Except.pure]
    congr 1
    clear hb hd h h0
    induction s with
    | nil => rfl
    | cons c cs ih =>
      by_cases hc : c = 0
      · subst hc; rfl
      · simp [hc]
        simpa using ih
  refine ⟨b ++ [0, 0], by simp [encode, hb, bind, Except.bind, pure, Except.pure], e, ?_⟩
  intro h0
  rw [e]
  congr 1
  clear hb hd h e
  induction s with
  | nil => rfl
  | cons c cs ih =>
    simp only [List.mem_cons, not_or] at h0
    have : c ≠ 0 := fun h => h0.1 h.symm
    simp [this]
    simpa using ih h0.2

/-- Different texts without U+0000 are stored as different bytes. -/
theorem C05_injective {s t : Str} (hs : ∀ c ∈ s, Scalar c) (ht : ∀ c ∈ t, Scalar c)
    (hs0 : 0 ∉ s) (ht0 : 0 ∉ t) (h : encode s = encode t) : s = t := by
  obtain ⟨b, hb, _, h1⟩ := C05_string hs
  obtain ⟨c, hc, _, h2⟩ := C05_string ht
  rw [hb, hc] at h
  cases h
  have := (h1 hs0).symm.trans (h2 ht0)
  cases this; rfl

/-- The scan of one nonzero unit sequence. -/
theorem scan_encoded {s : Str} (h : ∀ c ∈ s, Scalar c) (h0 : 0 ∉ s) : ∃ b, encodeRaw s = .ok b ∧
    ∀ acc rest, decodeArrayFrom acc (b ++ rest) = decodeArrayFrom (acc ++ b) rest := by
  induction s with
  | nil => exact ⟨[], rfl, by simp⟩
  | cons c cs ih =>
    simp only [List.mem_cons, not_or] at h0
    obtain ⟨b, hb, hd⟩ := ih (fun x hx => h x (by simp [hx])) h0.2
    have hc := h c (by simp)
    have step : ∀ u acc rest, 0 < u → u < 0x10000 →
        decodeArrayFrom acc (leN 2 u ++ rest) = decodeArrayFrom (acc ++ leN 2 u) rest := by
      intro u acc rest hu hu2
      rw [leN2, List.cons_append, List.cons_append, List.nil_append]
      conv => lhs; unfold decodeArrayFrom
      rw [if_neg]
      rintro ⟨h1, h2⟩
      have h1 := congrArg UInt8.toNat h1
      have h2 := congrArg UInt8.toNat h2
      rw [toNat_ofNat_mod] at h1 h2
      simp at h1 h2
      omega
    by_cases h1 : c < 0x10000
    · refine ⟨leN 2 c ++ b, by simp [encodeRaw, units, hc, h1, hb, bind, Except.bind, pure, Except.pure], ?_⟩
      intro acc rest
      rw [List.append_assoc, step _ _ _ (by omega) h1, hd, List.append_assoc]
    · refine ⟨leN 2 (0xD800 + (c - 0x10000) / 0x400) ++ leN 2 (0xDC00 + (c - 0x10000) % 0x400) ++ b,
        by simp [encodeRaw, units, hc, h1, hb, bind, Except.bind, pure, Except.pure], ?_⟩
      intro acc rest
      have hc' : 0x10000 ≤ c ∧ c < 0x110000 := by rcases hc with h | h <;> omega
      rw [List.append_assoc, List.append_assoc, step _ _ _ (by omega) (by omega), step _ _ _ (by omega) (by omega), hd]
      simp

/-- A list of texts stored as a string array is read back as the same list (empty texts included). -/
theorem C05_string_array {l : List Str} (h : ∀ s ∈ l, (∀ c ∈ s, Scalar c) ∧ 0 ∉ s) :
    ∃ b, encodeArray l = .ok b ∧ decodeArray b = .ok l := by
  suffices hh : ∃ b, encodeArray l = .ok b ∧ decodeArrayFrom [] b = .ok l from hh
  induction l with
  | nil => exact ⟨[], rfl, rfl⟩
  | cons s ss ih =>
    obtain ⟨b, hb, hd⟩ := ih (fun x hx => h x (by simp [hx]))
    obtain ⟨h1, h2⟩ := h s (by simp)
    obtain ⟨a, ha, hsc⟩ := scan_encoded h1 h2
    obtain ⟨a', ha', _, hdec⟩ := decodeRaw_encodeRaw true h1
    rw [ha] at ha'; cases ha'
    refine ⟨(a ++ [0, 0]) ++ b, by simp [encodeArray, encode, ha, hb, bind, Except.bind, pure, Except.pure], ?_⟩
    rw [List.append_assoc, hsc]
    have hfin : decodeRaw true a = .ok s := by
      have := hdec []
      rw [List.append_nil] at this
      rw [this]
      show Except.ok (s ++ []) = _
      simp
    show decodeArrayFrom ([] ++ a) (0 :: 0 :: b) = _
    rw [decodeArrayFrom]
    simp [hfin, hd, bind, Except.bind, pure, Except.pure]

/-- A text with an embedded U+0000 is split in two by the string array: the hypothesis is needed. -/
theorem C05_string_array_counterexample : ∃ l : List Str, (∀ s ∈ l, ∀ c ∈ s, Scalar c) ∧
    ∃ b, encodeArray l = .ok b ∧ decodeArray b ≠ .ok l :=
  ⟨[[65, 0, 66]], by simp [Scalar], [65, 0, 0, 0, 66, 0, 0, 0], by decide +kernel, by decide +kernel⟩

example : ∃ s : Str, (∀ c ∈ s, Scalar c) ∧ 0 ∉ s ∧ s.length = 3 ∧ encode s = .ok [0x41, 0, 0x3D, 0xD8, 0, 0xDE, 0x1F, 0x04, 0, 0] :=
  ⟨[0x41, 0x1F600, 0x41F], by simp [Scalar], by simp, rfl, by decide +kernel⟩

end Verif.Utf16
