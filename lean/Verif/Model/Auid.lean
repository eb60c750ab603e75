import Verif.Model.Text
/-!
# AUID (src/aaf2/auid.py)

An `AUID` object holds one field `bytes_le`, a `bytearray`; the model is that byte string.
The constructor does not check its length when built from bytes.
-/
namespace Verif.Auid

/-- Half swap `b[3::-1] + b[5:3:-1] + b[7:5:-1] + b[8:]`, auid.py:21, 33-41. -/
def swap (b : Bytes) : Bytes :=
  (b.take 4).reverse ++ (slice b 4 6).reverse ++ (slice b 6 8).reverse ++ b.drop 8

/-- `AUID.bytes_be` getter, auid.py:33-36. -/
def bytesBe (le : Bytes) : Bytes := swap le

/-- `AUID(bytes_be=v)` / `bytes_be` setter, auid.py:22-23, 38-41. -/
def ofBytesBe (v : Bytes) : Bytes := swap v

/-- `b[i]`; the model returns 0 outside (Python raises IndexError; all theorems below use 16 bytes). (Used in `int`: auid.py:43-69.) -/
def at' (b : Bytes) (i : Nat) : Nat := (b.getD i 0).toNat

/-- `AUID.int`, auid.py:43-69, the shifts written as products. -/
def int (b : Bytes) : Nat :=
  at' b 15 + at' b 14 * 2^8 + at' b 13 * 2^16 + at' b 12 * 2^24 + at' b 11 * 2^32 + at' b 10 * 2^40 +
  at' b 9 * 2^48 + at' b 8 * 2^56 + at' b 6 * 2^64 + at' b 7 * 2^72 + at' b 4 * 2^80 + at' b 5 * 2^88 +
  at' b 0 * 2^96 + at' b 1 * 2^104 + at' b 2 * 2^112 + at' b 3 * 2^120

/-- `AUID(int=v)`, auid.py:24-28.  `uuid.UUID(int=v)` refuses values outside `0 <= v < 2^128`; its
`bytes_le` is the half swap of the 16 big-endian bytes. -/
def ofInt (v : Nat) : Res Bytes :=
  if v = 0 then .ok (List.replicate 16 0)
  else if v < 2^128 then .ok (swap (beN 16 v))
  else .error .valueError

/-- `AUID.hex`, auid.py:71-73. -/
def hex (b : Bytes) : Text := fmtHex 32 (int b)

/-- `AUID(hex=s)` for a string, auid.py:15-21. -/
def ofHex (s : Text) : Res Bytes :=
  let s := removeAll ['u', 'u', 'i', 'd', ':'] (removeAll ['u', 'r', 'n', ':'] s)
  let s := removeAll ['-'] (strip ['{', '}'] s)
  if s.length ≠ 32 then .error .valueError
  else do
    let b ← fromHex s
    return swap b

/-- `AUID.__repr__`, auid.py:116-119. -/
def repr (b : Bytes) : Text :=
  let h := fmtHex 32 (int b)
  h.take 8 ++ ['-'] ++ (h.drop 8).take 4 ++ ['-'] ++ (h.drop 12).take 4 ++ ['-'] ++
    (h.drop 16).take 4 ++ ['-'] ++ h.drop 20

/-- `AUID.data1`, auid.py:79-85. -/
def data1 (b : Bytes) : Nat := at' b 0 + at' b 1 * 2^8 + at' b 2 * 2^16 + at' b 3 * 2^24
/-- `AUID.data2`, auid.py:87-91. -/
def data2 (b : Bytes) : Nat := at' b 4 + at' b 5 * 2^8
/-- `AUID.data3`, auid.py:93-97. -/
def data3 (b : Bytes) : Nat := at' b 6 + at' b 7 * 2^8
/-- `AUID.data4`, auid.py:99-101. -/
def data4 (b : Bytes) : Bytes := b.drop 8

/-- `__eq__`, auid.py:106-109 (both AUIDs). -/
def eq (a b : Bytes) : Bool := a == b
/-- `__lt__`, auid.py:111-114 (both AUIDs). -/
def lt (a b : Bytes) : Bool := int a < int b

/-! ## Lemmas -/

theorem exists16 {b : Bytes} (h : b.length = 16) : ∃ x0 x1 x2 x3 x4 x5 x6 x7 x8 x9 x10 x11 x12 x13 x14 x15 : UInt8,
    b = [x0, x1, x2, x3, x4, x5, x6, x7, x8, x9, x10, x11, x12, x13, x14, x15] := by
  match b, h with
  | [x0, x1, x2, x3, x4, x5, x6, x7, x8, x9, x10, x11, x12, x13, x14, x15], _ =>
    exact ⟨x0, x1, x2, x3, x4, x5, x6, x7, x8, x9, x10, x11, x12, x13, x14, x15, rfl⟩

theorem swap_length (b : Bytes) : (swap b).length = b.length := by
  simp [swap, slice]; omega

theorem swap_swap {b : Bytes} (h : b.length = 16) : swap (swap b) = b := by
  obtain ⟨_, _, _, _, _, _, _, _, _, _, _, _, _, _, _, _, rfl⟩ := exists16 h
  rfl

theorem int_eq_unBe {b : Bytes} (h : b.length = 16) : int b = unBe (swap b) := by
  obtain ⟨x0, x1, x2, x3, x4, x5, x6, x7, x8, x9, x10, x11, x12, x13, x14, x15, rfl⟩ := exists16 h
  have e : swap [x0, x1, x2, x3, x4, x5, x6, x7, x8, x9, x10, x11, x12, x13, x14, x15] =
      [x3, x2, x1, x0, x5, x4, x7, x6, x8, x9, x10, x11, x12, x13, x14, x15] := rfl
  rw [e]
  have e0 : unBe [] = 0 := rfl
  simp only [int, at', unBe_cons, e0, List.length_cons, List.length_nil, List.getD_cons_zero, List.getD_cons_succ,
    Nat.zero_add, Nat.reduceAdd, Nat.reducePow, Nat.mul_one, Nat.add_zero]
  clear e e0 h
  generalize x0.toNat = x0
  generalize x1.toNat = x1
  generalize x2.toNat = x2
  generalize x3.toNat = x3
  generalize x4.toNat = x4
  generalize x5.toNat = x5
  generalize x6.toNat = x6
  generalize x7.toNat = x7
  generalize x8.toNat = x8
  generalize x9.toNat = x9
  generalize x10.toNat = x10
  generalize x11.toNat = x11
  generalize x12.toNat = x12
  generalize x13.toNat = x13
  generalize x14.toNat = x14
  generalize x15.toNat = x15
  ac_rfl

theorem int_lt {b : Bytes} (h : b.length = 16) : int b < 2^128 := by
  rw [int_eq_unBe h]
  have := unBe_lt (swap b)
  rw [swap_length, h] at this
  exact this

theorem hex_eq {b : Bytes} (h : b.length = 16) : hex b = hexBytes (swap b) := by
  have := int_lt h
  rw [hex, fmtHex_eq_hexN (by omega) (by omega), int_eq_unBe h]
  have := hexN_unBe (swap b)
  rw [swap_length, h] at this
  exact this

theorem not_mem_hexAlphabet {c : Char} (s : Text) (hs : ∀ x ∈ s, x ∈ hexAlphabet) (hc : c ∉ hexAlphabet) :
    c ∉ s := fun h => hc (hs c h)

theorem ofHex_of_alphabet {s : Text} (b : Bytes) (hs : s.filter (· ≠ '-') = hexBytes (swap b))
    (hb : b.length = 16) (hal : ∀ c ∈ s, c ∈ hexAlphabet ∨ c = '-') : ofHex s = .ok b := by
  have hu : 'u' ∉ s := by intro h; rcases hal _ h with h | h <;> revert h <;> decide
  have h1 : removeAll ['u', 'r', 'n', ':'] s = s := removeAll_of_not_mem hu
  have h2 : removeAll ['u', 'u', 'i', 'd', ':'] s = s := removeAll_of_not_mem hu
  have h3 : strip ['{', '}'] s = s := by
    apply strip_of_not_mem
    intro c hc
    rcases hal _ hc with h | h
    · intro hh; simp at hh
      rcases hh with rfl | rfl <;> revert h <;> decide
    · subst h; decide
  simp only [ofHex, h1, h2, h3, removeAll_single, hs]
  rw [hexBytes_length, swap_length, hb, fromHex_hexBytes]
  simp [bind, Except.bind, pure, Except.pure, swap_swap hb]

end Verif.Auid
