import Verif.Model.Types
/-! # C06: integer property values survive encoding and out-of-range values are refused -/
namespace Verif.Types

/-- Independent description of the range of an integer type. -/
def IntRange (size : Nat) (signed : Bool) (i : Int) : Prop :=
  if signed then -(2 ^ (8 * size - 1) : Nat) ≤ i ∧ i < (2 ^ (8 * size - 1) : Nat)
  else 0 ≤ i ∧ i < (2 ^ (8 * size) : Nat)

theorem inRange_iff (size : Nat) (signed : Bool) (i : Int) : inRange size signed i = true ↔ IntRange size signed i := by
  cases signed <;> simp [inRange, IntRange]

theorem intSizeOk_cases {size : Nat} (h : intSizeOk size = true) : size = 1 ∨ size = 2 ∨ size = 4 ∨ size = 8 := by
  simpa [intSizeOk] using h

theorem encInt_spec {size : Nat} {signed : Bool} {i : Int} (hs : intSizeOk size = true) (h : IntRange size signed i) :
    ∃ b, encInt size signed i = .ok b ∧ b.length = size ∧ decInt size signed b = .ok i := by
  refine ⟨leN size (i % (256 : Int) ^ size).toNat, ?_, leN_length _ _, ?_⟩
  · simp [encInt, hs, (inRange_iff _ _ _).mpr h]
  · have hlt : (i % (256 : Int) ^ size).toNat < 256 ^ size := by
      have hp : (0 : Int) < (256 : Int) ^ size := Int.pow_pos (by omega)
      have h1 := Int.emod_lt_of_pos i hp
      have h2 := Int.emod_nonneg i (Int.ne_of_gt hp)
      have h3 : ((256 ^ size : Nat) : Int) = (256 : Int) ^ size := Int.natCast_pow 256 size
      omega
    simp only [decInt, leN_length, ne_eq, not_true_eq_false, if_false, hs, unpackInt, unLe_leN_of_lt hlt]
    rcases intSizeOk_cases hs with rfl | rfl | rfl | rfl <;> cases signed <;>
      simp [IntRange] at h ⊢ <;> (try split) <;> omega

/-- In range: exactly `size` bytes, and reading gives the integer back.  Out of range: refused. -/
theorem C06_int_roundtrip {size : Nat} (hs : size = 1 ∨ size = 2 ∨ size = 4 ∨ size = 8) (signed : Bool) (i : Int)
    (lower : Utf16.Str → Utf16.Str) :
    (IntRange size signed i → ∃ b, enc lower (.int size signed) (.int i) = .ok b ∧ b.length = size ∧
      dec (.int size signed) b = .ok (.int i)) ∧
    (¬ IntRange size signed i → enc lower (.int size signed) (.int i) = .error .structError) := by
  have hs' : intSizeOk size = true := by simpa [intSizeOk] using hs
  constructor
  · intro h
    obtain ⟨b, h1, h2, h3⟩ := encInt_spec hs' h
    exact ⟨b, by simp [enc, asInt, h1, bind, Except.bind], h2, by simp [dec, h3, bind, Except.bind, pure, Except.pure]⟩
  · intro h
    have : inRange size signed i = false := by rw [← Bool.not_eq_true, inRange_iff]; exact h
    simp [enc, asInt, encInt, hs', this, bind, Except.bind]

/-- Every byte string of the right size is the encoding of exactly one in-range integer; any other size is refused. -/
theorem C06_int_surjective {size : Nat} (hs : size = 1 ∨ size = 2 ∨ size = 4 ∨ size = 8) (signed : Bool) (b : Bytes)
    (lower : Utf16.Str → Utf16.Str) :
    (b.length = size → ∃ i, dec (.int size signed) b = .ok (.int i) ∧ IntRange size signed i ∧
      enc lower (.int size signed) (.int i) = .ok b) ∧
    (b.length ≠ size → dec (.int size signed) b = .error .assertion) := by
  have hs' : intSizeOk size = true := by simpa [intSizeOk] using hs
  constructor
  · intro hl
    have hlt := unLe_lt b
    rw [hl] at hlt
    have hr : IntRange size signed (unpackInt size signed b) := by
      rcases hs with rfl | rfl | rfl | rfl <;> cases signed <;>
        simp [IntRange, unpackInt] <;> (try split) <;> omega
    refine ⟨unpackInt size signed b, by simp [dec, decInt, hl, hs', bind, Except.bind, pure, Except.pure], hr, ?_⟩
    simp only [enc, asInt, encInt, hs', (inRange_iff _ _ _).mpr hr, bind, Except.bind]
    have : ((unpackInt size signed b) % (256 : Int) ^ size).toNat = unLe b := by
      rcases hs with rfl | rfl | rfl | rfl <;> cases signed <;>
        simp [unpackInt] <;> (try split) <;> omega
    rw [this]
    have := leN_unLe b
    rw [hl] at this
    simp [this]
  · intro hl
    simp [dec, decInt, hl, bind, Except.bind]

/-- A type with another size is refused both ways. -/
theorem C06_int_bad_size {size : Nat} (hs : ¬ (size = 1 ∨ size = 2 ∨ size = 4 ∨ size = 8)) (signed : Bool) (i : Int)
    (lower : Utf16.Str → Utf16.Str) : enc lower (.int size signed) (.int i) = .error .propertyError := by
  have hs' : intSizeOk size = false := by simpa [intSizeOk] using hs
  simp [enc, asInt, encInt, hs', bind, Except.bind]

example : IntRange 2 true (-300) ∧ ¬ IntRange 1 true (-300) ∧
    enc id (.int 2 true) (.int (-300)) = .ok [0xD4, 0xFE] := ⟨by simp [IntRange], by simp [IntRange], by rfl⟩

end Verif.Types
