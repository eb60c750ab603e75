import Verif.Model.Text
/-!
# UTF-16 strings (src/aaf2/utils.py:81-103, src/aaf2/types.py:306-312)

A Python `str` is a list of code points, lone surrogates included.
-/
namespace Verif.Utf16

/-- Python's `str`, as code points (utils.py:81-103). -/
abbrev Str := List Nat

/-- A Unicode scalar value: what UTF-16 can encode. (Used in `units`: utils.py:87-88.) -/
def Scalar (c : Nat) : Prop := c < 0xD800 ∨ (0xE000 ≤ c ∧ c < 0x110000)

instance (c : Nat) : Decidable (Scalar c) := inferInstanceAs (Decidable (_ ∨ _))

/-- UTF-16 code units of one code point; lone surrogates raise UnicodeEncodeError. (Used in `encodeRaw`: utils.py:87-88.) -/
def units (c : Nat) : Res (List Nat) :=
  if Scalar c then
    if c < 0x10000 then .ok [c]
    else .ok [0xD800 + (c - 0x10000) / 0x400, 0xDC00 + (c - 0x10000) % 0x400]
  else .error .unicodeError

/-- `s.encode('utf-16le')`. (Used in `encode`: utils.py:87-88.) -/
def encodeRaw : Str → Res Bytes
  | [] => .ok []
  | c :: cs => do
    let u ← units c
    let rest ← encodeRaw cs
    return u.flatMap (leN 2) ++ rest

/-- `encode_utf16le`, utils.py:87-88. -/
def encode (s : Str) : Res Bytes := do
  let b ← encodeRaw s
  return b ++ [0, 0]

/-- `encode_utf16_array`, utils.py:99-103. -/
def encodeArray : List Str → Res Bytes
  | [] => .ok []
  | s :: ss => do
    let a ← encode s
    let b ← encodeArray ss
    return a ++ b

/-- The text `\xNN` put by the `backslashreplace` error handler for one byte. (Made of `Str` utils.py:81-103.) -/
def escape (b : UInt8) : Str := [0x5C, 0x78] ++ (hexN 2 b.toNat).map Char.toNat

/-- Strict or `backslashreplace` decoding (`strict = true` raises UnicodeDecodeError).
An illegal unit replaces its two bytes, truncated data at the end replaces all remaining bytes. (Used in `decode`: utils.py:81-85.) -/
def decodeRaw (strict : Bool) : Bytes → Res Str
  | [] => .ok []
  | [x] => if strict then .error .unicodeError else .ok (escape x)
  | a :: b :: rest =>
    let u := a.toNat + 256 * b.toNat
    if u < 0xD800 ∨ 0xE000 ≤ u then do
      let s ← decodeRaw strict rest
      return u :: s
    else if u < 0xDC00 then
      match rest with
      | c :: d :: rest' =>
        let v := c.toNat + 256 * d.toNat
        if 0xDC00 ≤ v ∧ v < 0xE000 then do
          let s ← decodeRaw strict rest'
          return (0x10000 + (u - 0xD800) * 0x400 + (v - 0xDC00)) :: s
        else if strict then .error .unicodeError
        else do
          let s ← decodeRaw strict (c :: d :: rest')
          return escape a ++ escape b ++ s
      | short => if strict then .error .unicodeError else .ok (escape a ++ escape b ++ short.flatMap escape)
    else if strict then .error .unicodeError
    else do
      let s ← decodeRaw strict rest
      return escape a ++ escape b ++ s

/-- `decode_utf16le`, utils.py:81-85 (Python 3): text before the first U+0000. -/
def decode (b : Bytes) : Res Str := do
  let s ← decodeRaw false b
  return s.takeWhile (· ≠ 0)

/-- `iter_utf16_array`, types.py:306-312, as a scan: `acc` is `data[start:i]`. -/
def decodeArrayFrom (acc : Bytes) : Bytes → Res (List Str)
  | [] => .ok []
  | [x] => if x = 0 then .error .indexError else .ok []
  | a :: b :: rest =>
    if a = 0 ∧ b = 0 then do
      let s ← decodeRaw true acc
      let ss ← decodeArrayFrom [] rest
      return s :: ss
    else decodeArrayFrom (acc ++ [a, b]) rest

/-- `iter_utf16_array`, types.py:306-312. -/
def decodeArray (b : Bytes) : Res (List Str) := decodeArrayFrom [] b

/-! ## Lemmas -/

theorem leN2 (v : Nat) : leN 2 v = [UInt8.ofNat (v % 256), UInt8.ofNat (v / 256 % 256)] := rfl

theorem toNat_ofNat_mod (v : Nat) : (UInt8.ofNat (v % 256)).toNat = v % 256 := by
  rw [UInt8.toNat_ofNat']; omega

theorem decode_unit {u : Nat} (strict : Bool) (h : u < 0xD800 ∨ (0xE000 ≤ u ∧ u < 0x10000)) (rest : Bytes) :
    decodeRaw strict (leN 2 u ++ rest) = (do let s ← decodeRaw strict rest; return u :: s) := by
  rw [leN2, List.cons_append, List.cons_append, List.nil_append]
  conv => lhs; unfold decodeRaw
  have e : (UInt8.ofNat (u % 256)).toNat + 256 * (UInt8.ofNat (u / 256 % 256)).toNat = u := by
    rw [toNat_ofNat_mod, toNat_ofNat_mod]; omega
  simp only [e]
  rw [if_pos (by omega)]

theorem decode_pair {c : Nat} (strict : Bool) (h : 0x10000 ≤ c ∧ c < 0x110000) (rest : Bytes) :
    decodeRaw strict (leN 2 (0xD800 + (c - 0x10000) / 0x400) ++ (leN 2 (0xDC00 + (c - 0x10000) % 0x400) ++ rest)) =
      (do let s ← decodeRaw strict rest; return c :: s) := by
  rw [leN2, leN2]
  simp only [List.cons_append, List.nil_append]
  conv => lhs; unfold decodeRaw
  generalize hu : 0xD800 + (c - 0x10000) / 0x400 = u
  generalize hv : 0xDC00 + (c - 0x10000) % 0x400 = v
  have e : ∀ u : Nat, u < 0x10000 → (UInt8.ofNat (u % 256)).toNat + 256 * (UInt8.ofNat (u / 256 % 256)).toNat = u := by
    intro u h
    rw [toNat_ofNat_mod, toNat_ofNat_mod]; omega
  have e1 := e u (by omega)
  have e2 := e v (by omega)
  simp only [e1, e2]
  rw [if_neg (by omega), if_pos (by omega), if_pos (by omega)]
  have : 0x10000 + (u - 0xD800) * 0x400 + (v - 0xDC00) = c := by omega
  rw [this]

/-- Decoding undoes encoding, whatever follows. -/
theorem decodeRaw_encodeRaw (strict : Bool) {s : Str} (h : ∀ c ∈ s, Scalar c) :
    ∃ b, encodeRaw s = .ok b ∧ b.length % 2 = 0 ∧
      ∀ rest, decodeRaw strict (b ++ rest) = (do let t ← decodeRaw strict rest; return s ++ t) := by
  induction s with
  | nil =>
    refine ⟨[], rfl, rfl, ?_⟩
    intro rest
    simp
  | cons c cs ih =>
    obtain ⟨b, hb, hl, hd⟩ := ih (fun x hx => h x (by simp [hx]))
    have hc := h c (by simp)
    by_cases h1 : c < 0x10000
    · refine ⟨leN 2 c ++ b, ?_, ?_, ?_⟩
      · simp [encodeRaw, units, hc, h1, hb, bind, Except.bind, pure, Except.pure]
      · simp; omega
      · intro rest
        rw [List.append_assoc, decode_unit strict (by rcases hc with h | h <;> omega), hd]
        cases decodeRaw strict rest <;> simp [bind, Except.bind, pure, Except.pure]
    · refine ⟨leN 2 (0xD800 + (c - 0x10000) / 0x400) ++ leN 2 (0xDC00 + (c - 0x10000) % 0x400) ++ b, ?_, ?_, ?_⟩
      · simp [encodeRaw, units, hc, h1, hb, bind, Except.bind, pure, Except.pure]
      · simp; omega
      · intro rest
        rw [List.append_assoc, List.append_assoc, decode_pair strict (by rcases hc with h | h <;> omega), hd]
        cases decodeRaw strict rest <;> simp [bind, Except.bind, pure, Except.pure]

end Verif.Utf16
