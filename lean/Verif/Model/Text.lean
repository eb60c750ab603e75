import Verif.Model.Bytes
/-!
# Text helpers: hexadecimal digits, `str.replace`, `str.strip`, `bytearray.fromhex`, `int(s, 16)`

Python strings made of ASCII characters are modelled as `List Char`.
-/
namespace Verif

/-- Python's `str`, as it occurs in auid.py:14-21, 71-73 and mobid.py:359-465. -/
abbrev Text := List Char

/-- Lower-case hexadecimal digit of `n < 16` (Python `%x`). (For the formats in auid.py:73 and mobid.py:359-405.) -/
def hexDigit (n : Nat) : Char :=
  if n < 10 then Char.ofNat (48 + n) else Char.ofNat (87 + n)

/-- Value of one hexadecimal digit, either case. (For `int(s, 16)` in mobid.py:407-465 and `fromhex` in auid.py:20.) -/
def hexVal (c : Char) : Option Nat :=
  let n := c.toNat
  if 48 ≤ n ∧ n ≤ 57 then some (n - 48)
  else if 97 ≤ n ∧ n ≤ 102 then some (n - 87)
  else if 65 ≤ n ∧ n ≤ 70 then some (n - 55)
  else none

/-- Exactly `n` hexadecimal digits of `v`, most significant first. (For the formats in auid.py:73 and mobid.py:359-405.) -/
def hexN : Nat → Nat → Text
  | 0, _ => []
  | n + 1, v => hexN n (v / 16) ++ [hexDigit (v % 16)]

/-- Python `'%x' % v`. (Made of `Text` auid.py:14-21, 71-73, `hexDigit` auid.py:73.) -/
def toHex (v : Nat) : Text :=
  if _h : v < 16 then [hexDigit v] else toHex (v / 16) ++ [hexDigit (v % 16)]
termination_by v
decreasing_by omega

/-- Python `'%0nx' % v`: at least `n` digits, zero padded. (Made of `Text` auid.py:14-21, 71-73.) -/
def fmtHex (n v : Nat) : Text :=
  List.replicate (n - (toHex v).length) '0' ++ toHex v

/-- `pat` is a prefix of `s`. (For `replace` in auid.py:16-17.) -/
def isPrefix : Text → Text → Bool
  | [], _ => true
  | _ :: _, [] => false
  | p :: ps, c :: cs => p == c && isPrefix ps cs

/-- Python `s.replace(pat, '')` for a nonempty pattern: drop non-overlapping occurrences from the left. (Made of `Text` auid.py:14-21, 71-73, `isPrefix` auid.py:16-17.) -/
def removeAll (pat : Text) (s : Text) : Text :=
  match s with
  | [] => []
  | c :: cs =>
    if pat ≠ [] ∧ isPrefix pat (c :: cs) then removeAll pat ((c :: cs).drop pat.length)
    else c :: removeAll pat cs
termination_by s.length
decreasing_by
  · rename_i h
    have : 0 < pat.length := List.length_pos_iff.mpr h.1
    simp only [List.length_drop, List.length_cons]; omega
  · simp

/-- Python `s.strip(chars)`. (Made of `Text` auid.py:14-21, 71-73.) -/
def strip (chars : Text) (s : Text) : Text :=
  ((s.dropWhile (· ∈ chars)).reverse.dropWhile (· ∈ chars)).reverse

/-- ASCII whitespace skipped by `bytearray.fromhex`. (For auid.py:20.) -/
def isAsciiSpace (c : Char) : Bool := c == ' ' || (9 ≤ c.toNat && c.toNat ≤ 13)

/-- Python `bytearray.fromhex(s)`: pairs of hex digits, whitespace allowed between bytes. (Made of `Text` auid.py:14-21, 71-73, `hexVal` mobid.py:407-465, `isAsciiSpace` auid.py:20.) -/
def fromHex : Text → Res Bytes
  | [] => .ok []
  | c :: cs =>
    if isAsciiSpace c then fromHex cs
    else match cs with
      | [] => .error .valueError
      | d :: ds =>
        match hexVal c, hexVal d with
        | some x, some y => do
          let rest ← fromHex ds
          return UInt8.ofNat (16 * x + y) :: rest
        | _, _ => .error .valueError

/-- Python `int(s, 16)` restricted to plain hexadecimal digits.  (Signs, underscores, blanks and the
`0x` prefix that Python also accepts are treated as errors.) (Made of `Text` auid.py:14-21, 71-73, `hexVal` mobid.py:407-465.) -/
def parseHex (s : Text) : Res Nat :=
  if s = [] then .error .valueError
  else s.foldlM (fun acc c => match hexVal c with
    | some d => .ok (16 * acc + d)
    | none => .error .valueError) 0

/-! ## Lemmas -/

theorem hexVal_hexDigit : ∀ n : Fin 16, hexVal (hexDigit n) = some n.val := by decide

theorem hexVal_hexDigit' {n : Nat} (h : n < 16) : hexVal (hexDigit n) = some n :=
  hexVal_hexDigit ⟨n, h⟩

theorem hexDigit_not_space {n : Nat} (h : n < 16) : isAsciiSpace (hexDigit n) = false := by
  have : ∀ n : Fin 16, isAsciiSpace (hexDigit n) = false := by decide
  exact this ⟨n, h⟩

/-- The lower-case hexadecimal digits. (For the formats in auid.py:73 and mobid.py:359-405.) -/
def hexAlphabet : Text := ['0', '1', '2', '3', '4', '5', '6', '7', '8', '9', 'a', 'b', 'c', 'd', 'e', 'f']

theorem hexDigit_mem {n : Nat} (h : n < 16) : hexDigit n ∈ hexAlphabet := by
  have : ∀ n : Fin 16, hexDigit n ∈ hexAlphabet := by decide
  exact this ⟨n, h⟩

@[simp] theorem hexN_length (n v : Nat) : (hexN n v).length = n := by
  induction n generalizing v with
  | zero => rfl
  | succ n ih => simp [hexN, ih]

theorem hexN_mem {n v : Nat} {c : Char} (h : c ∈ hexN n v) : c ∈ hexAlphabet := by
  induction n generalizing v with
  | zero => simp [hexN] at h
  | succ n ih =>
    simp only [hexN, List.mem_append, List.mem_singleton] at h
    rcases h with h | h
    · exact ih h
    · rw [h]; exact hexDigit_mem (Nat.mod_lt _ (by omega))

theorem toHex_lt {v : Nat} (h : v < 16) : toHex v = [hexDigit v] := by
  rw [toHex]; simp [h]

theorem toHex_ge {v : Nat} (h : ¬ v < 16) : toHex v = toHex (v / 16) ++ [hexDigit (v % 16)] := by
  rw [toHex]; simp [h]

theorem toHex_ne_nil (v : Nat) : toHex v ≠ [] := by
  rw [toHex]; split <;> simp

theorem toHex_mem {v : Nat} {c : Char} (h : c ∈ toHex v) : c ∈ hexAlphabet := by
  induction v using Nat.strongRecOn with
  | _ v ih =>
    by_cases hv : v < 16
    · rw [toHex_lt hv] at h; simp at h; rw [h]; exact hexDigit_mem hv
    · rw [toHex_ge hv] at h
      simp only [List.mem_append, List.mem_singleton] at h
      rcases h with h | h
      · exact ih _ (by omega) h
      · rw [h]; exact hexDigit_mem (Nat.mod_lt _ (by omega))

theorem hexN_zero (n : Nat) : hexN n 0 = List.replicate n '0' := by
  induction n with
  | zero => rfl
  | succ n ih =>
    simp only [hexN, Nat.zero_div, ih, Nat.zero_mod]
    rw [List.replicate_succ']; rfl

theorem fmtHex_eq_hexN {n v : Nat} (h : v < 16 ^ n) (hn : 0 < n) : fmtHex n v = hexN n v := by
  induction n generalizing v with
  | zero => omega
  | succ n ih =>
    by_cases hv : v < 16
    · simp only [fmtHex, toHex_lt hv, hexN]
      have : v / 16 = 0 := by omega
      rw [this, hexN_zero, Nat.mod_eq_of_lt hv]; simp
    · have h2 : v / 16 < 16 ^ n := by
        rw [Nat.pow_succ] at h; omega
      have hn' : 0 < n := by
        rcases n with _ | n
        · simp at h; omega
        · omega
      have := ih h2 hn'
      simp only [fmtHex] at this
      simp only [fmtHex, toHex_ge hv, hexN, ← this]
      simp

theorem toHex_length_le {n v : Nat} (h : v < 16 ^ n) (hn : 0 < n) : (toHex v).length ≤ n := by
  have := congrArg List.length (fmtHex_eq_hexN h hn)
  simp [fmtHex] at this
  omega

/-- `%x` is injective. -/
theorem toHex_inj {a b : Nat} (h : toHex a = toHex b) : a = b := by
  have key : ∀ v, ∃ f : Text → Nat, f (toHex v) = v ∧ f = fun s => s.foldl (fun acc c => 16 * acc + (hexVal c).getD 0) 0 := by
    intro v
    refine ⟨_, ?_, rfl⟩
    induction v using Nat.strongRecOn with
    | _ v ih =>
      by_cases hv : v < 16
      · rw [toHex_lt hv]; simp [hexVal_hexDigit' hv]
      · rw [toHex_ge hv]
        simp only [List.foldl_append, ih (v / 16) (by omega), List.foldl_cons, List.foldl_nil]
        rw [hexVal_hexDigit' (Nat.mod_lt _ (by omega))]
        simp; omega
  obtain ⟨f, ha, hf⟩ := key a
  obtain ⟨g, hb, hg⟩ := key b
  rw [← ha, ← hb, h, hf, hg]

theorem parseHex_hexN {n v : Nat} (hn : 0 < n) (h : v < 16 ^ n) : parseHex (hexN n v) = .ok v := by
  have hne : hexN n v ≠ [] := by
    intro h0
    have := congrArg List.length h0
    simp at this; omega
  simp only [parseHex, if_neg hne]
  clear hn hne
  induction n generalizing v with
  | zero => simp at h; subst h; rfl
  | succ n ih =>
    have h2 : v / 16 < 16 ^ n := by rw [Nat.pow_succ] at h; omega
    simp only [hexN, List.foldlM_append, ih h2]
    simp only [List.foldlM_cons, List.foldlM_nil, hexVal_hexDigit' (Nat.mod_lt v (by omega : 0 < 16)), bind,
      Except.bind, pure, Except.pure]
    congr 1; omega

/-- A text over an alphabet not containing the first character of the pattern is unchanged by `replace`. -/
theorem removeAll_of_not_mem {p : Char} {ps s : Text} (h : p ∉ s) : removeAll (p :: ps) s = s := by
  induction s with
  | nil => rw [removeAll]
  | cons c cs ih =>
    simp only [List.mem_cons, not_or] at h
    rw [removeAll]
    simp [isPrefix, h.1, ih h.2]

theorem removeAll_single (p : Char) (s : Text) : removeAll [p] s = s.filter (· ≠ p) := by
  induction s with
  | nil => rw [removeAll]; rfl
  | cons c cs ih =>
    rw [removeAll]
    by_cases hc : c = p
    · subst hc; simp [isPrefix, ih]
    · have : ¬ p = c := fun h => hc h.symm
      simp [isPrefix, ih, hc, this]

theorem strip_of_not_mem {chars s : Text} (h : ∀ c ∈ s, c ∉ chars) : strip chars s = s := by
  have key : ∀ t : Text, (∀ c ∈ t, c ∉ chars) → t.dropWhile (· ∈ chars) = t := by
    intro t ht
    cases t with
    | nil => rfl
    | cons c cs => simp [List.dropWhile, ht c (by simp)]
  simp only [strip]
  rw [key s h, key s.reverse (by simpa using h)]
  simp

/-- Hexadecimal text of a byte string, two digits per byte (`'%02x' * n % tuple(b)`). (For the formats in mobid.py:359-405.) -/
def hexBytes (b : Bytes) : Text := b.flatMap (fun x => hexN 2 x.toNat)

theorem hexBytes_length (b : Bytes) : (hexBytes b).length = 2 * b.length := by
  induction b with
  | nil => rfl
  | cons x b ih =>
    simp only [hexBytes] at ih
    simp only [hexBytes, List.flatMap_cons, List.length_append, hexN_length, ih, List.length_cons]; omega

theorem fromHex_hexBytes (b : Bytes) : fromHex (hexBytes b) = .ok b := by
  induction b with
  | nil => rfl
  | cons x b ih =>
    have hx := x.toNat_lt
    have h1 : x.toNat / 16 < 16 := by omega
    have h2 : x.toNat % 16 < 16 := by omega
    have e : hexBytes (x :: b) = hexDigit (x.toNat / 16) :: hexDigit (x.toNat % 16) :: hexBytes b := by
      simp [hexBytes, hexN, Nat.mod_eq_of_lt h1]
    rw [e, fromHex]
    simp only [hexDigit_not_space h1, hexVal_hexDigit' h1, hexVal_hexDigit' h2, ih]
    simp only [bind, Except.bind, pure, Except.pure, Bool.false_eq_true, if_false]
    have : 16 * (x.toNat / 16) + x.toNat % 16 = x.toNat := by omega
    rw [this]; simp

/-- The hexadecimal text of the big-endian value is the concatenated hexadecimal text of the bytes. -/
theorem hexN_unBe (b : Bytes) : hexN (2 * b.length) (unBe b) = hexBytes b := by
  have key : ∀ c : Bytes, hexN (2 * c.length) (unLe c) = hexBytes c.reverse := by
    intro c
    induction c with
    | nil => rfl
    | cons x c ih =>
      have hx := x.toNat_lt
      simp only [List.length_cons, Nat.mul_add, Nat.mul_one, hexN, unLe]
      have h1 : (x.toNat + 256 * unLe c) / 16 / 16 = unLe c := by omega
      have h2 : (x.toNat + 256 * unLe c) / 16 % 16 = x.toNat / 16 := by omega
      have h3 : (x.toNat + 256 * unLe c) % 16 = x.toNat % 16 := by omega
      have h1' : x.toNat / 16 < 16 := by omega
      rw [h1, h2, h3, ih]
      simp [hexBytes, hexN, Nat.mod_eq_of_lt h1']
  have := key b.reverse
  simpa [unBe] using this

theorem hexBytes_mem {b : Bytes} {c : Char} (h : c ∈ hexBytes b) : c ∈ hexAlphabet := by
  simp only [hexBytes, List.mem_flatMap] at h
  obtain ⟨x, _, hx⟩ := h
  exact hexN_mem hx

theorem hexBytes_append (a b : Bytes) : hexBytes (a ++ b) = hexBytes a ++ hexBytes b := by
  simp [hexBytes]

end Verif
