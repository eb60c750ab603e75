import Verif.Props.C09_Values
/-! # C08, C10, C11 and the places where nesting fails

The positive part for arrays and sets of every element type is `C09_roundtrip`; here are the exact behaviour of
fixed size arrays, which do not read back as assigned, and the remaining cases. -/
namespace Verif.Types
open Verif.Utf16 (Str Scalar)

/-- Nested non-trivial instance of `Reads`: an array of records of a rational, an enumeration and a record. -/
def sampleTy : Ty := .var (.record (.cons [97] .rational (.cons [98] (.enum 1 false [(1, [120]), (2, [121])])
  (.cons [99] (.record (.cons [100] .mobid (.cons [101] .stamp .nil))) .nil))))

example : Reads id sampleTy
    (.list [.dict [([99], .dict [([101], .datetime 2020 2 29 23 59 59 7), ([100], .mobid (List.replicate 32 1))]),
        ([98], .int 2), ([97], .rat (-4) 6)]])
    (.list [.dict [([97], .rat (-4) 6), ([98], .text [121]),
        ([99], .dict [([100], .mobid (List.replicate 32 1)), ([101], .datetime 2020 2 29 23 59 59 0)])]]) := by
  refine ⟨⟨49, by decide +kernel⟩, _, _, rfl, rfl, .cons ?_ .nil⟩
  refine ⟨by decide, _, _, by decide, rfl, rfl, ?_⟩
  refine ⟨⟨8, rfl⟩, .rat (-4) 6, .rat (-4) 6, _, by simp, rfl, ?_, ?_⟩
  · exact ⟨-4, 6, by simp [IntRange], by simp [IntRange], by decide, .inl rfl, rfl⟩
  refine ⟨⟨1, rfl⟩, .int 2, .text [121], _, by simp, rfl, ?_, ?_⟩
  · exact ⟨.inl rfl, by decide, by simp [IntRange], 2, [121], by simp, .inr rfl, rfl⟩
  refine ⟨⟨40, by decide +kernel⟩, .dict [([101], .datetime 2020 2 29 23 59 59 7), ([100], .mobid (List.replicate 32 1))], _, [], by simp, rfl, ?_, rfl⟩
  refine ⟨by decide, _, _, by decide, rfl, rfl, ?_⟩
  refine ⟨⟨32, rfl⟩, .mobid (List.replicate 32 1), _, _, by simp, rfl, ⟨_, by simp, rfl, rfl⟩, ?_⟩
  exact ⟨⟨8, rfl⟩, .datetime 2020 2 29 23 59 59 7, _, [], by simp, rfl, ⟨2020, 2, 29, 23, 59, 59, 7, by decide, by decide, rfl, rfl⟩, rfl⟩

theorem enc_var (lower : Str → Str) (t : Ty) (v : Val) :
    enc lower (.var t) v = (do let parts ← (← items v).mapM (enc lower t); return parts.flatten) := by
  rw [enc]

/-- Assigning a list to a variable array of unsigned or signed integers gives that list back. -/
theorem C08_var_int {s : Nat} {g : Bool} (hs : s = 1 ∨ s = 2 ∨ s = 4 ∨ s = 8) {l : List Int}
    (hl : ∀ i ∈ l, IntRange s g i) (lower : Str → Str) :
    ∃ b, enc lower (.var (.int s g)) (.list (l.map .int)) = .ok b ∧ b.length = l.length * s ∧
      dec (.var (.int s g)) b = .ok (.list (l.map .int)) := by
  have hall : All2 (Reads lower (.int s g)) (l.map .int) (l.map .int) := by
    induction l with
    | nil => exact .nil
    | cons i l ih => exact .cons ⟨hs, i, hl i (by simp), rfl, rfl⟩ (ih (fun j hj => hl j (by simp [hj])))
  have hw : width (.int s g) = some s := by simp [width, hs]
  obtain ⟨b, h1, h2, _⟩ := C09_roundtrip lower (.var (.int s g)) _ _ ⟨⟨s, hw⟩, _, _, rfl, rfl, hall⟩
  refine ⟨b, h1, ?_, h2⟩
  obtain ⟨parts, p1, p2, p3, _⟩ := mapM_enc hw (C09_roundtrip lower (.int s g)) hall
  simp only [enc_var, items, bind_ok, p1] at h1
  cases h1
  rw [flatten_length p2, p3]; simp

/-- A fixed size array refuses the empty list and lists with too many elements, whatever the type. -/
theorem C08_fixed_refused (lower : Str → Str) (t : Ty) (n : Nat) :
    (∃ e, enc lower (.fixed t n) (.list []) = .error e) ∧
    ∀ l : List Val, n < l.length → ∃ e, enc lower (.fixed t n) (.list l) = .error e := by
  constructor
  · cases h : size t with
    | error e => exact ⟨e, by simp [enc, h, bind, Except.bind]⟩
    | ok s => exact ⟨.unboundLocal, by simp [enc, h, bind, Except.bind, items, pure, Except.pure, throw, throwThe, MonadExceptOf.throw]⟩
  · intro l hl
    cases h : size t with
    | error e => exact ⟨e, by simp [enc, h, bind, Except.bind]⟩
    | ok s =>
      cases h2 : (l.take n).mapM (enc lower t) with
      | error e => exact ⟨e, by simp [enc, h, bind, Except.bind, items, h2]⟩
      | ok p => exact ⟨.propertyError, by simp [enc, h, bind, Except.bind, items, h2, hl, throw, throwThe, MonadExceptOf.throw]⟩

theorem unLe_replicate (k : Nat) : unLe (List.replicate k 0) = 0 := by
  induction k with
  | zero => rfl
  | succ k ih => simp [List.replicate_succ, unLe, ih]

/-- What a fixed size integer array of `n` elements does with every list it accepts: it reads back with `n + 1`
elements, the assigned ones followed by zeros.  So no assigned list ever reads back equal. -/
theorem C08_fixed_int {s : Nat} {g : Bool} (hs : s = 1 ∨ s = 2 ∨ s = 4 ∨ s = 8) {n : Nat} {l : List Int}
    (hl : ∀ i ∈ l, IntRange s g i) (h0 : l ≠ []) (hn : l.length ≤ n) (lower : Str → Str) :
    ∃ b, enc lower (.fixed (.int s g) n) (.list (l.map .int)) = .ok b ∧
      dec (.fixed (.int s g) n) b = .ok (.list ((l ++ List.replicate (n + 1 - l.length) 0).map .int)) := by
  have hall : All2 (Reads lower (.int s g)) (l.map .int) (l.map .int) := by
    clear h0 hn
    induction l with
    | nil => exact .nil
    | cons i l ih => exact .cons ⟨hs, i, hl i (by simp), rfl, rfl⟩ (ih (fun j hj => hl j (by simp [hj])))
  have hpos : 0 < l.length := List.length_pos_iff.mpr h0
  have hw : width (.int s g) = some s := by simp [width, hs]
  obtain ⟨parts, p1, p2, p3, p4⟩ := mapM_enc hw (C09_roundtrip lower (.int s g)) hall
  rw [List.length_map] at p3
  let k := n + 1 - l.length
  have hk : n - (l.length - 1) = k := by show _ = n + 1 - l.length; omega
  have hpad : List.replicate (k * s) (0 : UInt8) = (List.replicate k (List.replicate s (0 : UInt8))).flatten := by
    rw [List.flatten_replicate_replicate]
  refine ⟨parts.flatten ++ List.replicate (k * s) 0, ?_, ?_⟩
  · rw [enc]
    simp only [size, bind_ok, items]
    rw [List.take_of_length_le (by simpa using hn), p1]
    simp only [List.length_map, bind_ok, Nat.not_lt.mpr hn, if_false, List.map_eq_nil_iff, h0, hk]; rfl
  · have hz : dec (.int s g) (List.replicate s 0) = .ok (.int 0) := by
      have : intSizeOk s = true := by simpa [intSizeOk] using hs
      have h2 : ¬ (2 ^ (8 * s - 1) ≤ 0) := by have := Nat.two_pow_pos (8 * s - 1); omega
      simp [dec, decInt, this, unpackInt, unLe_replicate, bind, Except.bind, pure, Except.pure]
    have p4' : All2 (fun p w => dec (.int s g) p = .ok w) (parts ++ List.replicate k (List.replicate s 0))
        ((l ++ List.replicate k 0).map .int) := by
      rw [List.map_append]
      have tailR : ∀ k, All2 (fun p w => dec (.int s g) p = .ok w) (List.replicate k (List.replicate s 0))
          ((List.replicate k (0 : Int)).map Val.int) := by
        intro k
        induction k with
        | zero => exact .nil
        | succ k ih => exact .cons hz ih
      generalize l.map Val.int = m at p4
      clear p1 p2 p3
      induction p4 with
      | nil => exact tailR k
      | cons h _ ih => exact .cons h ih
    obtain ⟨is, hi, he⟩ := decInts_flatten (by simpa [intSizeOk] using hs) (s := s) (g := g) (parts := parts ++ List.replicate k (List.replicate s 0))
      (by
        intro p hp
        rcases List.mem_append.mp hp with h | h
        · exact p2 p h
        · rw [List.eq_of_mem_replicate h]; simp) p4'
    rw [hpad, ← List.flatten_append]
    simp only [dec, asIntTy, hi, bind_ok, pure, Except.pure]
    rw [← he]

/-- A fixed size array of anything but integers stores one element too many but reads back the assigned list;
a record containing it is then misread: the member after the array comes from the surplus element. -/
theorem C08_fixed_array_counterexample :
    (∃ b, enc id (.fixed (.int 1 false) 2) (.list [.int 1, .int 2]) = .ok b ∧
      dec (.fixed (.int 1 false) 2) b = .ok (.list [.int 1, .int 2, .int 0])) ∧
    ∃ b, enc id (.record (.cons [97] (.fixed .bool 1) (.cons [98] .bool .nil)))
        (.dict [([97], .list [.bool true]), ([98], .bool true)]) = .ok b ∧
      dec (.record (.cons [97] (.fixed .bool 1) (.cons [98] .bool .nil))) b =
        .ok (.dict [([97], .list [.bool true]), ([98], .bool false)]) :=
  ⟨⟨[1, 2, 0], rfl, rfl⟩, ⟨[1, 0, 1], rfl, rfl⟩⟩

/-- In files created by pyaaf2 the character type is named `aafCharacter`; every nonempty list of strings is
refused there, while the empty list is accepted. -/
theorem C08_string_array_refused (lower : Str → Str) (l : List Val) :
    (enc lower (.strArray false) (.list l) = .error .attributeError ↔ l ≠ []) := by
  by_cases h : l = [] <;> simp [enc, items, h, bind, Except.bind, pure, Except.pure, throw, throwThe, MonadExceptOf.throw]

/-! ## C10 -/

/-- A rational property reads back with the very numerator and denominator assigned (no reduction), for every
pair of 32-bit integers with nonzero denominator; an integer reads back over 1. -/
theorem C10_rational {n d : Int} (hn : IntRange 4 true n) (hd : IntRange 4 true d) (h0 : d ≠ 0) (lower : Str → Str) :
    ∃ b, enc lower .rational (.rat n d) = .ok b ∧ b.length = 8 ∧ dec .rational b = .ok (.rat n d) := by
  obtain ⟨b, h1, h2, h3⟩ := C09_roundtrip lower .rational (.rat n d) (.rat n d) ⟨n, d, hn, hd, h0, .inl rfl, rfl⟩
  exact ⟨b, h1, h3 _ rfl, h2⟩

/-- Every stored rational is read: nonzero denominators exactly, `0/0` as `0/1`, and `n/0` raises. -/
theorem C10_rational_decode (lower : Str → Str) (b : Bytes) (hb : b.length = 8) :
    ∃ n d, IntRange 4 true n ∧ IntRange 4 true d ∧
      (d ≠ 0 → dec .rational b = .ok (.rat n d) ∧ enc lower .rational (.rat n d) = .ok b) ∧
      (d = 0 → n = 0 → dec .rational b = .ok (.rat 0 1)) ∧
      (d = 0 → n ≠ 0 → dec .rational b = .error .zeroDivision) := by
  have l1 : (slice b 0 4).length = 4 := by simp [slice, hb]
  have l2 : (slice b 4 8).length = 4 := by simp [slice, hb]
  obtain ⟨n, n2, n1, n3⟩ := (C06_int_surjective (size := 4) (by decide) true _ lower).1 l1
  obtain ⟨d, d2, d1, d3⟩ := (C06_int_surjective (size := 4) (by decide) true _ lower).1 l2
  have n2' : decInt 4 true (slice b 0 4) = .ok n := by
    simp only [dec] at n2
    cases h : decInt 4 true (slice b 0 4) with
    | error e => rw [h] at n2; cases n2
    | ok i => rw [h] at n2; cases n2; rfl
  have d2' : decInt 4 true (slice b 4 8) = .ok d := by
    simp only [dec] at d2
    cases h : decInt 4 true (slice b 4 8) with
    | error e => rw [h] at d2; cases d2
    | ok i => rw [h] at d2; cases d2; rfl
  refine ⟨n, d, n1, d1, ?_, ?_, ?_⟩
  · intro h
    refine ⟨by simp only [dec, n2', d2', bind_ok, mkRational, if_neg h], ?_⟩
    simp only [enc, asInt, bind_ok] at n3 d3
    simp only [enc, asRational, bind_ok, n3, d3, pure, Except.pure]
    congr 1
    have := List.take_append_drop 4 b
    simp only [slice, List.drop_zero]
    rw [List.take_of_length_le (l := b.drop 4) (by simp [hb])]
    exact this
  · intro h h'; simp only [dec, n2', d2', bind_ok, mkRational, if_pos h, if_pos h']
  · intro h h'; simp only [dec, n2', d2', bind_ok, mkRational, if_pos h, if_neg h']

example : ∃ b, enc id .rational (.rat (-4) 6) = .ok b ∧ dec .rational b = .ok (.rat (-4) 6) := ⟨_, rfl, rfl⟩

/-! ## C11 -/

/-- An indirect value carries its type: whatever the dictionary of types, a value assigned with type `id` reads
back as that type reads it, together with the type id. -/
theorem C11_indirect (lower : Str → Str) (lookup : Bytes → Option Ty) {id : Bytes} {t : Ty} {v w : Val}
    (hid : id.length = 16) (ht : lookup id = some t) (h : Reads lower t v w) :
    ∃ b, encIndirect lower lookup v (some id) = .ok b ∧ decIndirect lookup b = .ok (id, w) := by
  obtain ⟨b, h1, h2, _⟩ := C09_roundtrip lower t v w h
  refine ⟨[0x4c] ++ id ++ b, ?_, ?_⟩
  · simp [encIndirect, ht, h1, bind, Except.bind, pure, Except.pure]
  · have s1 : slice ([0x4c] ++ id ++ b) 0 1 = [0x4c] := by simp [slice]
    have s2 : slice ([0x4c] ++ id ++ b) 1 17 = id := by simp [slice, ← hid]
    have s3 : ([0x4c] ++ id ++ b).drop 17 = b := by simp [← hid]
    simp only [decIndirect, s1, s2, s3, ht, h2]; rfl

/-- Without an explicit type, text, rationals and integers get the string, rational and 32-bit integer types. -/
theorem C11_indirect_default (lower : Str → Str) (lookup : Bytes → Option Ty)
    (hs : lookup stringAuid = some .str) (hr : lookup rationalAuid = some .rational) (hi : lookup int32Auid = some (.int 4 true)) :
    (∀ s, Storable s → ∃ b, encIndirect lower lookup (.text s) none = .ok b ∧ decIndirect lookup b = .ok (stringAuid, .text s)) ∧
    (∀ n d, IntRange 4 true n → IntRange 4 true d → d ≠ 0 →
      ∃ b, encIndirect lower lookup (.rat n d) none = .ok b ∧ decIndirect lookup b = .ok (rationalAuid, .rat n d)) ∧
    (∀ i, IntRange 4 true i →
      ∃ b, encIndirect lower lookup (.int i) none = .ok b ∧ decIndirect lookup b = .ok (int32Auid, .int i)) ∧
    (∀ i, ¬ IntRange 4 true i → ∃ e, encIndirect lower lookup (.int i) none = .error e) := by
  refine ⟨?_, ?_, ?_, ?_⟩
  · intro s h
    obtain ⟨b, h1, h2⟩ := C11_indirect lower lookup (v := .text s) (w := .text s) rfl hs ⟨s, h, rfl, rfl⟩
    refine ⟨b, ?_, h2⟩
    rw [← h1]; simp [encIndirect, hs]
  · intro n d hn hd h0
    obtain ⟨b, h1, h2⟩ := C11_indirect lower lookup (v := .rat n d) (w := .rat n d) rfl hr ⟨n, d, hn, hd, h0, .inl rfl, rfl⟩
    refine ⟨b, ?_, h2⟩
    rw [← h1]; simp [encIndirect, hr]
  · intro i h
    obtain ⟨b, h1, h2⟩ := C11_indirect lower lookup (v := .int i) (w := .int i) rfl hi ⟨by decide, i, h, rfl, rfl⟩
    refine ⟨b, ?_, h2⟩
    rw [← h1]; simp [encIndirect, hi]
  · intro i h
    have := (C06_int_roundtrip (size := 4) (by decide) true i lower).2 h
    obtain ⟨e, he⟩ : ∃ e, enc lower (.int 4 true) (.int i) = .error e := ⟨_, this⟩
    exact ⟨e, by simp [encIndirect, hi, he, bind, Except.bind, pure, Except.pure]⟩

example : ∃ b, encIndirect id (fun i => if i = stringAuid then some .str else none) (.text [104, 105]) none = .ok b ∧
    b.length = 23 := ⟨_, rfl, rfl⟩

end Verif.Types
