/-!
# Bytes, little/big endian integers, exceptions

Model of the parts of Python's `struct`, `bytes` and `int` used by pyaaf2.
-/
namespace Verif

/-- A Python `bytes`/`bytearray` value. (Python's, as in utils.py:12-60.) -/
abbrev Bytes := List UInt8

/-- The exceptions raised by the modelled code, as values.  (The message text is not modelled.) (Python's and those of exceptions.py:8-18.) -/
inductive Err where
  | valueError | assertion | indexError | keyError | typeError | attributeError | structError
  | zeroDivision | cfbError | propertyError | attachError | notImplemented | unicodeError
  | unboundLocal | ioError | noFuel | outOfRange
  deriving DecidableEq, Repr

/-- Result of a Python call that may raise. (Python's, as in utils.py:12-60.) -/
abbrev Res := Except Err

instance {ε α : Type} [DecidableEq ε] [DecidableEq α] : DecidableEq (Except ε α)
  | .ok a, .ok b => if h : a = b then isTrue (by rw [h]) else isFalse (by intro e; cases e; exact h rfl)
  | .error a, .error b =>
      if h : a = b then isTrue (by rw [h]) else isFalse (by intro e; cases e; exact h rfl)
  | .ok _, .error _ => isFalse (by intro e; cases e)
  | .error _, .ok _ => isFalse (by intro e; cases e)

/-- `n` bytes of `v`, least significant first: the little-endian `struct` formats
(utils.py:16-58, `<H`, `<I`, `<Q`) without the range check. -/
def leN : Nat → Nat → Bytes
  | 0, _ => []
  | n + 1, v => UInt8.ofNat (v % 256) :: leN n (v / 256)

/-- Little-endian value of a byte string (`unpack_u16le_from` etc., utils.py:134-155, and
`int_from_bytes(.., 'little')`, utils.py:157-162). -/
def unLe : Bytes → Nat
  | [] => 0
  | b :: bs => b.toNat + 256 * unLe bs

/-- `n` bytes of `v`, most significant first (`bytes_from_int(.., 'big')`, utils.py:171-177). -/
def beN (n v : Nat) : Bytes := (leN n v).reverse

/-- Big-endian value (`int_from_bytes(.., 'big')`, utils.py:163-167; `>H`, `>I`, `>Q`). -/
def unBe (bs : Bytes) : Nat := unLe bs.reverse

/-- `struct.pack` of an unsigned little-endian integer on `n` bytes: raises `struct.error`
when the value does not fit (utils.py:16-97 `write_u*le`, `encode_u*le`). -/
def packLe (n v : Nat) : Res Bytes :=
  if v < 256 ^ n then .ok (leN n v) else .error .structError

/-- Python slice `b[i:j]` for `0 ≤ i ≤ j`. (Python's, as in auid.py:35-36.) -/
def slice {α : Type} (b : List α) (i j : Nat) : List α := (b.drop i).take (j - i)

/-- `struct.pack_into`/slice assignment of the same length at offset `i`: `b[i:i+len(v)] = v`
on a bytearray long enough. (As in mobid.py:212-214.) -/
def splice (b : Bytes) (i : Nat) (v : Bytes) : Bytes :=
  b.take i ++ v ++ b.drop (i + v.length)

/-! ## Lemmas -/

@[simp] theorem leN_length (n v : Nat) : (leN n v).length = n := by
  induction n generalizing v with
  | zero => rfl
  | succ n ih => simp [leN, ih]

@[simp] theorem beN_length (n v : Nat) : (beN n v).length = n := by simp [beN]

theorem unLe_leN (n v : Nat) : unLe (leN n v) = v % 256 ^ n := by
  induction n generalizing v with
  | zero => simp [leN, unLe, Nat.mod_one]
  | succ n ih =>
    simp only [leN, unLe, ih]
    have h : (UInt8.ofNat (v % 256)).toNat = v % 256 := by
      simp
    rw [h, Nat.pow_succ, Nat.mul_comm (256 ^ n) 256, Nat.mod_mul]

theorem unLe_leN_of_lt {n v : Nat} (h : v < 256 ^ n) : unLe (leN n v) = v := by
  rw [unLe_leN, Nat.mod_eq_of_lt h]

theorem unLe_lt (bs : Bytes) : unLe bs < 256 ^ bs.length := by
  induction bs with
  | nil => simp [unLe]
  | cons b bs ih =>
    simp only [unLe, List.length_cons, Nat.pow_succ]
    have := b.toNat_lt
    omega

theorem leN_unLe (bs : Bytes) : leN bs.length (unLe bs) = bs := by
  induction bs with
  | nil => rfl
  | cons b bs ih =>
    have hb := b.toNat_lt
    have h1 : (b.toNat + 256 * unLe bs) % 256 = b.toNat := by omega
    have h2 : (b.toNat + 256 * unLe bs) / 256 = unLe bs := by omega
    simp [leN, unLe, h1, h2, ih]

theorem unLe_inj {a b : Bytes} (hl : a.length = b.length) (h : unLe a = unLe b) : a = b := by
  rw [← leN_unLe a, ← leN_unLe b, h, hl]

theorem unLe_append (a b : Bytes) : unLe (a ++ b) = unLe a + 256 ^ a.length * unLe b := by
  induction a with
  | nil => simp [unLe]
  | cons x a ih =>
    simp only [List.cons_append, unLe, ih, List.length_cons, Nat.pow_succ]
    rw [Nat.mul_add, Nat.add_assoc, Nat.mul_comm (256 ^ a.length) 256, Nat.mul_assoc]

theorem unBe_beN (n v : Nat) : unBe (beN n v) = v % 256 ^ n := by
  simp [unBe, beN, unLe_leN]

theorem unBe_beN_of_lt {n v : Nat} (h : v < 256 ^ n) : unBe (beN n v) = v := by
  rw [unBe_beN, Nat.mod_eq_of_lt h]

theorem unBe_lt (bs : Bytes) : unBe bs < 256 ^ bs.length := by
  have := unLe_lt bs.reverse
  simpa [unBe] using this

theorem beN_unBe (bs : Bytes) : beN bs.length (unBe bs) = bs := by
  have := leN_unLe bs.reverse
  simp only [List.length_reverse] at this
  simp [beN, unBe, this]

theorem unBe_inj {a b : Bytes} (hl : a.length = b.length) (h : unBe a = unBe b) : a = b := by
  rw [← beN_unBe a, ← beN_unBe b, h, hl]

theorem unBe_cons (x : UInt8) (bs : Bytes) : unBe (x :: bs) = x.toNat * 256 ^ bs.length + unBe bs := by
  simp only [unBe, List.reverse_cons, unLe_append, List.length_reverse, unLe, Nat.mul_zero,
    Nat.add_zero]
  rw [Nat.mul_comm]; omega

theorem packLe_ok {n v : Nat} (h : v < 256 ^ n) : packLe n v = .ok (leN n v) := by
  simp [packLe, h]

@[simp] theorem splice_length (b : Bytes) (i : Nat) (v : Bytes) (h : i + v.length ≤ b.length) :
    (splice b i v).length = b.length := by
  simp [splice]; omega

@[simp] theorem slice_length {α : Type} (b : List α) (i j : Nat) (h : j ≤ b.length) :
    (slice b i j).length = j - i := by
  simp [slice]; omega

/-- Reading back the spliced field. -/
theorem slice_splice_self (b : Bytes) (i : Nat) (v : Bytes) (h : i + v.length ≤ b.length) :
    slice (splice b i v) i (i + v.length) = v := by
  have h1 : (b.take i).length = i := by simp; omega
  simp only [slice, splice, List.append_assoc]
  rw [List.drop_append_of_le_length (by omega)]
  rw [List.drop_of_length_le (by omega)]
  simp

/-- A field before the spliced range is unchanged. -/
theorem slice_splice_before (b : Bytes) (i : Nat) (v : Bytes) (p q : Nat) (hq : q ≤ i)
    (h : i + v.length ≤ b.length) : slice (splice b i v) p q = slice b p q := by
  apply List.ext_getElem?
  intro k
  simp only [slice, splice, List.getElem?_take, List.getElem?_drop, List.append_assoc]
  split
  · rw [List.getElem?_append_left (by simp; omega), List.getElem?_take]
    simp; omega
  · rfl

/-- A field after the spliced range is unchanged. -/
theorem slice_splice_after (b : Bytes) (i : Nat) (v : Bytes) (p q : Nat) (hp : i + v.length ≤ p)
    (h : i + v.length ≤ b.length) : slice (splice b i v) p q = slice b p q := by
  apply List.ext_getElem?
  intro k
  simp only [slice, splice, List.getElem?_take, List.getElem?_drop, List.append_assoc]
  split
  · rw [List.getElem?_append_right (by simp; omega), List.getElem?_append_right (by simp; omega)]
    simp only [List.getElem?_drop, List.length_take]
    congr 1; omega
  · rfl

/-- The middle part of a concatenation. -/
theorem slice_mid {α : Type} {a b c : List α} {i j : Nat} (hi : a.length = i) (hj : i + b.length = j) :
    slice (a ++ (b ++ c)) i j = b := by
  subst hi
  have : j - a.length = b.length := by omega
  simp [slice, this]

end Verif
