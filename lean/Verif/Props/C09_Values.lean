import Verif.Props.C05_Utf16
import Verif.Props.C06_Int
/-! # C08, C09, C10, C11: values of every data type, nested to any depth, survive encoding

`Reads t v w` is the specification: assigning `v` to a property of type `t` and reading it gives `w`.
It is written on values only, without any reference to the bytes. -/
namespace Verif.Types
open Verif.Utf16 (Str Scalar)

/-- Two lists of the same length related item by item. -/
inductive All2 {α β : Type} (R : α → β → Prop) : List α → List β → Prop
  | nil : All2 R [] []
  | cons {a b l m} : R a b → All2 R l m → All2 R (a :: l) (b :: m)

/-- Text that can be stored: no lone surrogate, no U+0000. -/
def Storable (s : Str) : Prop := (∀ c ∈ s, Scalar c) ∧ 0 ∉ s

def fieldNames : Fields → List Str
  | .nil => []
  | .cons n _ rest => n :: fieldNames rest

mutual
/-- The number of bytes of a stored value, for the types where it is the same for all values.  A fixed size array
is not among them: what pyaaf2 stores for it does not have its nominal size (see `C08_fixed_array_counterexample`). -/
def width : Ty → Option Nat
  | .int s _ | .enum s _ _ => if s = 1 ∨ s = 2 ∨ s = 4 ∨ s = 8 then some s else none
  | .bool => some 1
  | .record fs => match widthFields fs with
    | some (n + 1) => some (n + 1)
    | _ => none
  | .mobid => some 32
  | .auid => some 16
  | .rational | .stamp => some 8
  | .date | .time => some 4
  | .fixed _ _ | .extEnum _ | .var _ | .strArray _ | .set _ | .str | .rename _ => none
def widthFields : Fields → Option Nat
  | .nil => some 0
  | .cons _ t rest => match width t, widthFields rest with
    | some a, some b => some (a + b)
    | _, _ => none
end

mutual
def Reads (lower : Str → Str) : Ty → Val → Val → Prop
  | .int s g, v, w => (s = 1 ∨ s = 2 ∨ s = 4 ∨ s = 8) ∧ ∃ i, IntRange s g i ∧ v = .int i ∧ w = .int i
  | .bool, v, w => ∃ b, v = .bool b ∧ w = .bool b
  | .enum s g els, v, w => (s = 1 ∨ s = 2 ∨ s = 4 ∨ s = 8) ∧ (els.map (·.1)).Nodup ∧ (∀ e ∈ els, IntRange s g e.1) ∧
      ∃ i n, (i, n) ∈ els ∧ (v = .text n ∨ v = .int i) ∧ w = .text n
  | .extEnum els, v, w => (els.map (·.1)).Nodup ∧ (∀ e ∈ els, ∀ e' ∈ els, lower e.2 = lower e'.2 → e = e') ∧
      ∃ k n m, (k, n) ∈ els ∧ lower m = lower n ∧ (v = .text m ∨ v = .auid k) ∧ w = .text n
  | .fixed t n, v, w => asIntTy t = none ∧ 0 < n ∧ (∃ s, width t = some s) ∧
      ∃ l m, l.length = n ∧ v = .list l ∧ w = .list m ∧ All2 (Reads lower t) l m
  | .var t, v, w => (∃ s, width t = some s) ∧ ∃ l m, v = .list l ∧ w = .list m ∧ All2 (Reads lower t) l m
  | .strArray named, v, w => named = true ∧ ∃ ss : List Str, (∀ s ∈ ss, Storable s) ∧
      v = .list (ss.map .text) ∧ w = .list (ss.map .text)
  | .set t, v, w => (∃ s, width t = some s) ∧ ∃ l m, (∀ x ∈ m, hashable x = true) ∧ v = .set l ∧ w = .set m ∧
      All2 (Reads lower t) l m
  | .str, v, w => ∃ s, Storable s ∧ v = .text s ∧ w = .text s
  | .record fs, v, w => (fieldNames fs).Nodup ∧
      ∃ d d', (d.map (·.1)).Nodup ∧ v = .dict d ∧ w = .dict d' ∧ ReadsFields lower fs d d'
  | .mobid, v, w => ∃ b : Bytes, b.length = 32 ∧ v = .mobid b ∧ w = .mobid b
  | .auid, v, w => ∃ b : Bytes, b.length = 16 ∧ v = .auid b ∧ w = .auid b
  | .rational, v, w => ∃ n d, IntRange 4 true n ∧ IntRange 4 true d ∧ d ≠ 0 ∧
      (v = .rat n d ∨ (v = .int n ∧ d = 1)) ∧ w = .rat n d
  | .date, v, w => ∃ y m d, validDate y m d = true ∧ v = .date y m d ∧ w = .date y m d
  | .time, v, w => ∃ h m s us, validTime h m s us = true ∧ v = .time h m s us ∧ w = .time h m s 0
  | .stamp, v, w => ∃ y mo d h m s us, validDate y mo d = true ∧ validTime h m s us = true ∧
      v = .datetime y mo d h m s us ∧ w = .datetime y mo d h m s 0
  | .rename t, v, w => Reads lower t v w
/-- Member by member: the dict may list the members in any order and contain other keys. -/
def ReadsFields (lower : Str → Str) : Fields → List (Str × Val) → List (Str × Val) → Prop
  | .nil, _, d' => d' = []
  | .cons name t rest, d, d' => (∃ s, width t = some s) ∧ ∃ x y d'', (name, x) ∈ d ∧ d' = (name, y) :: d'' ∧
      Reads lower t x y ∧ ReadsFields lower rest d d''
end

/-! ## Helper lemmas -/

mutual
/-- The code's `byte_size` agrees with the specification. -/
theorem size_of_width : ∀ (t : Ty) (n : Nat), width t = some n → size t = .ok n ∧ n ≠ 0
  | .int s g, n, h => by simp [width] at h; simp [size]; omega
  | .enum s g _, n, h => by simp [width] at h; simp [size]; omega
  | .bool, n, h => by simp [width] at h; simp [size]; omega
  | .mobid, n, h => by simp [width] at h; simp [size]; omega
  | .auid, n, h => by simp [width] at h; simp [size]; omega
  | .rational, n, h => by simp [width] at h; simp [size]; omega
  | .stamp, n, h => by simp [width] at h; simp [size]; omega
  | .date, n, h => by simp [width] at h; simp [size]; omega
  | .time, n, h => by simp [width] at h; simp [size]; omega
  | .record fs, n, h => by
    simp only [width] at h
    split at h
    · rename_i k hk
      have := size_of_widthFields fs _ hk
      cases h
      constructor
      · simp only [size, this]; rfl
      · omega
    · cases h
  | .fixed _ _, n, h | .extEnum _, n, h | .var _, n, h | .strArray _, n, h | .set _, n, h | .str, n, h
  | .rename _, n, h => by simp [width] at h
theorem size_of_widthFields : ∀ (fs : Fields) (n : Nat), widthFields fs = some n → sizeFields fs = .ok n
  | .nil, n, h => by simp [widthFields] at h; simp [sizeFields, h]
  | .cons _ t rest, n, h => by
    simp only [widthFields] at h
    split at h
    · rename_i a b ha hb
      cases h
      simp only [sizeFields, (size_of_width t a ha).1, size_of_widthFields rest b hb]; rfl
    · cases h
end

theorem find_unique {α β : Type} [DecidableEq α] {els : List (α × β)} (hn : (els.map (·.1)).Nodup) {k : α} {v : β}
    (h : (k, v) ∈ els) : els.find? (fun e => e.1 = k) = some (k, v) := by
  induction els with
  | nil => simp at h
  | cons e els ih =>
    simp only [List.map_cons, List.nodup_cons] at hn
    rcases List.mem_cons.mp h with rfl | h
    · simp
    · have : e.1 ≠ k := by
        rintro rfl
        exact hn.1 (List.mem_map.mpr ⟨_, h, rfl⟩)
      rw [List.find?_cons_of_neg (by simpa using this)]
      exact ih hn.2 h

theorem dictGet_of_mem {d : List (Str × Val)} (hn : (d.map (·.1)).Nodup) {k : Str} {v : Val} (h : (k, v) ∈ d) :
    dictGet d k = .ok v := by
  simp [dictGet, find_unique hn h]

theorem dictSet_fresh {κ α : Type} [DecidableEq κ] {d : List (κ × α)} {k : κ} {v : α} (h : k ∉ d.map (·.1)) :
    dictSet d k v = d ++ [(k, v)] := by
  induction d with
  | nil => rfl
  | cons p ps ih =>
    simp only [List.map_cons, List.mem_cons, not_or] at h
    rw [dictSet, if_neg (fun e => h.1 e.symm), ih h.2]; rfl

theorem bind_ok {α β : Type} (a : α) (f : α → Res β) : (Except.ok a >>= f) = f a := rfl

/-- Items of a common size, concatenated, are cut back into the items. -/
theorem slice_flatten {s : Nat} {parts : List Bytes} (h : ∀ p ∈ parts, p.length = s) (i : Nat) (hi : i < parts.length)
    (tail : Bytes) : slice (parts.flatten ++ tail) (i * s) ((i + 1) * s) = parts[i] := by
  induction parts generalizing i with
  | nil => simp at hi
  | cons p ps ih =>
    have hp := h p (by simp)
    cases i with
    | zero => simp [slice, ← hp]
    | succ i =>
      have := ih (fun q hq => h q (by simp [hq])) i (by simpa using hi)
      simp only [slice, List.flatten_cons, List.append_assoc] at this ⊢
      have e1 : (i + 1) * s = p.length + i * s := by rw [hp, Nat.add_mul]; omega
      have e3 : (i + 1) * s - i * s = s := by rw [Nat.add_mul]; omega
      have e2 : (i + 1 + 1) * s - (i + 1) * s = (i + 1) * s - i * s := by
        rw [Nat.add_mul (i + 1) 1 s, Nat.add_mul i 1 s]; omega
      rw [e3] at this
      rw [e2, e3, e1, List.drop_append, List.drop_eq_nil_of_le (by omega)]
      simp only [Nat.add_sub_cancel_left, List.nil_append, List.getElem_cons_succ]
      exact this

theorem mapM_ok_map {α β : Type} (l : List α) (f : α → Res β) (g : α → β) (h : ∀ x ∈ l, f x = .ok (g x)) :
    l.mapM f = .ok (l.map g) := by
  induction l with
  | nil => rfl
  | cons x l ih =>
    rw [List.mapM_cons, h x (by simp), ih (fun y hy => h y (by simp [hy]))]
    rfl

/-- Decoding loop over concatenated items. -/
theorem decLoop_flatten {α : Type} [Inhabited α] (f : Bytes → Res α) {s : Nat} {parts : List Bytes} {ws : List α}
    (hs : ∀ p ∈ parts, p.length = s) (h : All2 (fun p w => f p = .ok w) parts ws) (tail : Bytes) :
    decLoop f s parts.length (parts.flatten ++ tail) = .ok ws := by
  have hl : parts.length = ws.length := by
    clear hs
    induction h with
    | nil => rfl
    | cons _ _ ih => simp [ih]
  have hget : ∀ i (h1 : i < parts.length) (h2 : i < ws.length), f parts[i] = .ok ws[i] := by
    clear hs hl
    induction h with
    | nil => simp
    | cons h0 _ ih =>
      intro i h1 h2
      cases i with
      | zero => exact h0
      | succ i => exact ih i (by simpa using h1) (by simpa using h2)
  simp only [decLoop]
  rw [mapM_ok_map (g := fun i => ws.getD i default)]
  · congr 1
    apply List.ext_getElem
    · simp [hl]
    · intro i h1 h2
      simp [h2]
  · intro i hi
    have hi' : i < parts.length := by simpa using hi
    rw [slice_flatten hs i hi', hget i hi' (by omega)]
    simp [List.getElem?_eq_getElem (show i < ws.length by omega)]

theorem flatten_length {s : Nat} {parts : List Bytes} (h : ∀ p ∈ parts, p.length = s) :
    parts.flatten.length = parts.length * s := by
  induction parts with
  | nil => simp
  | cons p ps ih =>
    simp only [List.flatten_cons, List.length_append, List.length_cons]
    rw [ih (fun q hq => h q (by simp [hq])), h p (by simp), Nat.add_mul]; omega

/-- Encoding item by item. -/
theorem mapM_enc {t : Ty} {lower : Str → Str} {s : Nat} (hs : width t = some s)
    (ih : ∀ v w, Reads lower t v w → ∃ b, enc lower t v = .ok b ∧ dec t b = .ok w ∧ ∀ n, width t = some n → b.length = n)
    {l m : List Val} (h : All2 (Reads lower t) l m) :
    ∃ parts : List Bytes, l.mapM (enc lower t) = .ok parts ∧ (∀ p ∈ parts, p.length = s) ∧ parts.length = l.length ∧
      All2 (fun p w => dec t p = .ok w) parts m := by
  induction h with
  | nil => exact ⟨[], rfl, by simp, rfl, .nil⟩
  | cons h0 _ ih2 =>
    obtain ⟨parts, h1, h2, h3, h4⟩ := ih2
    obtain ⟨b, e1, e2, e3⟩ := ih _ _ h0
    refine ⟨b :: parts, ?_, ?_, by simp [h3], .cons e2 h4⟩
    · rw [List.mapM_cons, e1, h1]; rfl
    · intro p hp
      rcases List.mem_cons.mp hp with rfl | hp
      · exact e3 _ hs
      · exact h2 p hp

/-- Integer arrays are unpacked at once; same result as item by item. -/
theorem decInts_flatten {s : Nat} {g : Bool} {parts : List Bytes} {ws : List Val} (hsz : intSizeOk s = true)
    (hs : ∀ p ∈ parts, p.length = s) (h : All2 (fun p w => dec (.int s g) p = .ok w) parts ws) :
    ∃ is, decInts s g parts.flatten = .ok is ∧ ws = is.map Val.int := by
  have hpos : 0 < s := by rcases intSizeOk_cases hsz with h | h | h | h <;> omega
  have hlen := flatten_length hs
  have hws : ws = parts.map (fun p => Val.int (unpackInt s g p)) := by
    clear hlen
    induction h with
    | nil => rfl
    | cons h0 _ ih =>
      rename_i a b l m _
      rw [ih (fun q hq => hs q (by simp [hq]))]
      have ha := hs a (by simp)
      simp [dec, decInt, ha, hsz, bind, Except.bind, pure, Except.pure] at h0
      simp [← h0]
  refine ⟨parts.map (unpackInt s g), ?_, by rw [hws]; simp⟩
  simp only [decInts, hsz, hlen, Nat.mul_mod_left, Nat.mul_div_cancel _ hpos]
  simp only [not_true_eq_false, if_false, ne_eq]
  congr 1
  apply List.ext_getElem
  · simp
  · intro i h1 h2
    simp only [List.length_map] at h2
    have := slice_flatten hs i h2 []
    rw [List.append_nil] at this
    simp [this]

theorem slice_append_left {a b : Bytes} {i j : Nat} (h : j ≤ a.length) : slice (a ++ b) i j = slice a i j := by
  simp only [slice]
  by_cases hi : i ≤ a.length
  · rw [List.drop_append_of_le_length hi, List.take_append_of_le_length (by simp; omega)]
  · rw [show j - i = 0 by omega]; simp

theorem slice_append_right {a b : Bytes} {i j : Nat} (h : a.length ≤ i) :
    slice (a ++ b) i j = slice b (i - a.length) (j - a.length) := by
  simp only [slice]
  rw [List.drop_append, List.drop_eq_nil_of_le h, List.nil_append]
  congr 1; omega

theorem slice_full {a : Bytes} {j : Nat} (h : a.length ≤ j) : slice a 0 j = a := by
  simp [slice, List.take_of_length_le h]

theorem date_ranges {y m d : Int} (h : validDate y m d = true) :
    IntRange 2 true y ∧ IntRange 1 false m ∧ IntRange 1 false d := by
  simp [validDate] at h
  have : daysInMonth y m ≤ 31 := by
    unfold daysInMonth; split
    · split <;> omega
    · split <;> omega
  simp [IntRange]; omega

theorem encDate_spec {y m d : Int} (h : validDate y m d = true) :
    ∃ b, encDate (.date y m d) = .ok b ∧ b.length = 4 ∧ ∀ tail, decDate (b ++ tail) = .ok (.date y m d) := by
  obtain ⟨h1, h2, h3⟩ := date_ranges h
  obtain ⟨a, ea, la, da⟩ := encInt_spec (by decide) h1
  obtain ⟨b, eb, lb, db⟩ := encInt_spec (by decide) h2
  obtain ⟨c, ec, lc, dc⟩ := encInt_spec (by decide) h3
  refine ⟨a ++ b ++ c, by simp [encDate, encYmd, ea, eb, ec, bind, Except.bind, pure, Except.pure], by simp [la, lb, lc], ?_⟩
  intro tail
  have s1 : slice (a ++ b ++ c ++ tail) 0 2 = a := by
    rw [List.append_assoc, List.append_assoc, slice_append_left (by omega), slice_full (by omega)]
  have s2 : slice (a ++ b ++ c ++ tail) 2 3 = b := by
    rw [List.append_assoc, List.append_assoc, slice_append_right (by omega), la, slice_append_left (by omega), slice_full (by omega)]
  have s3 : slice (a ++ b ++ c ++ tail) 3 4 = c := by
    rw [List.append_assoc, slice_append_right (by simp; omega), List.length_append, la, lb, slice_append_left (by omega), slice_full (by omega)]
  simp only [decDate, s1, s2, s3, da, db, dc, bind_ok, h, if_true]; rfl

theorem encTime_spec {h m s us : Int} (hv : validTime h m s us = true) :
    ∃ b, encTime (.time h m s us) = .ok b ∧ b.length = 4 ∧ decTime b = .ok (.time h m s 0) := by
  have hv2 : validTime h m s 0 = true := by simp [validTime] at hv ⊢; omega
  have h1 : IntRange 1 false h := by simp [validTime] at hv; simp [IntRange]; omega
  have h2 : IntRange 1 false m := by simp [validTime] at hv; simp [IntRange]; omega
  have h3 : IntRange 1 false s := by simp [validTime] at hv; simp [IntRange]; omega
  obtain ⟨a, ea, la, da⟩ := encInt_spec (by decide) h1
  obtain ⟨b, eb, lb, db⟩ := encInt_spec (by decide) h2
  obtain ⟨c, ec, lc, dc⟩ := encInt_spec (by decide) h3
  obtain ⟨f, ef, lf, df⟩ := encInt_spec (size := 1) (signed := false) (i := 0) (by decide) (by simp [IntRange])
  refine ⟨a ++ b ++ c ++ f, by simp [encTime, encHms, ea, eb, ec, ef, bind, Except.bind, pure, Except.pure],
    by simp [la, lb, lc, lf], ?_⟩
  have s1 : slice (a ++ b ++ c ++ f) 0 1 = a := by
    rw [List.append_assoc, List.append_assoc, slice_append_left (by omega), slice_full (by omega)]
  have s2 : slice (a ++ b ++ c ++ f) 1 2 = b := by
    rw [List.append_assoc, List.append_assoc, slice_append_right (by omega), la, slice_append_left (by omega), slice_full (by omega)]
  have s3 : slice (a ++ b ++ c ++ f) 2 3 = c := by
    rw [List.append_assoc, slice_append_right (by simp; omega), List.length_append, la, lb, slice_append_left (by omega), slice_full (by omega)]
  have s4 : slice (a ++ b ++ c ++ f) 3 4 = f := by
    rw [slice_append_right (by simp; omega)]
    simp only [List.length_append, la, lb, lc]
    exact slice_full (by omega)
  simp only [decTime, s1, s2, s3, s4, da, db, dc, df, bind_ok, hv2, if_true]; rfl

/-! ## The theorem -/

mutual
/-- C08, C09 (main theorem).  For every type of the universe, nested to any depth, and every value: if `v` is
assignable and the specification says it reads as `w`, then encoding succeeds, decoding gives `w`, and the number
of bytes is the width of the type when it has one. -/
theorem C09_roundtrip (lower : Str → Str) : ∀ (t : Ty) (v w : Val), Reads lower t v w →
    ∃ b, enc lower t v = .ok b ∧ dec t b = .ok w ∧ ∀ n, width t = some n → b.length = n
  | .int s g, v, w, h => by
    obtain ⟨hs, i, hr, rfl, rfl⟩ := h
    obtain ⟨b, h1, h2, h3⟩ := (C06_int_roundtrip hs g i lower).1 hr
    refine ⟨b, h1, h3, ?_⟩
    intro n hn; simp [width] at hn; omega
  | .bool, v, w, h => by
    obtain ⟨b, rfl, rfl⟩ := h
    cases b
    · exact ⟨[0], rfl, rfl, by intro n hn; simp [width] at hn; simp [hn]⟩
    · exact ⟨[1], rfl, rfl, by intro n hn; simp [width] at hn; simp [hn]⟩
  | .enum s g els, v, w, h => by
    obtain ⟨hs, hnd, hr, i, n, hmem, hv, rfl⟩ := h
    have hs' : intSizeOk s = true := by simpa [intSizeOk] using hs
    obtain ⟨j, hj, hfind⟩ : ∃ j, (j, n) ∈ els ∧ enumFind els v = some j := by
      rcases hv with rfl | rfl
      · simp only [enumFind]
        cases hf : els.find? (fun e => e.2 = n) with
        | none =>
          rw [List.find?_eq_none] at hf
          exact absurd (hf _ hmem) (by simp)
        | some e =>
          have h1 := List.mem_of_find?_eq_some hf
          have h2 : e.2 = n := by simpa using List.find?_some hf
          exact ⟨e.1, by rw [← h2]; exact h1, rfl⟩
      · exact ⟨i, hmem, by simp [enumFind, find_unique hnd hmem]⟩
    obtain ⟨b, h1, h2, h3⟩ := encInt_spec hs' (hr _ hj)
    refine ⟨b, by simp [enc, hfind, h1], ?_, ?_⟩
    · simp only [dec, h3, bind_ok, find_unique hnd hj]; rfl
    · intro k hk; simp [width] at hk; omega
  | .extEnum els, v, w, h => by
    obtain ⟨hnd, huniq, k, n, m, hmem, hm, hv, rfl⟩ := h
    refine ⟨k, ?_, by simp [dec, find_unique hnd hmem], by intro n hn; simp [width] at hn⟩
    rcases hv with rfl | rfl
    · simp only [enc, extFind]
      cases hf : els.find? (fun e => lower e.2 = lower m) with
      | none =>
        rw [List.find?_eq_none] at hf
        exact absurd hm.symm (by simpa using hf _ hmem)
      | some e =>
        have h1 := List.mem_of_find?_eq_some hf
        have h2 : lower e.2 = lower m := by simpa using List.find?_some hf
        have := huniq e h1 (k, n) hmem (h2.trans hm)
        simp [this]
    · simp [enc, extFind, find_unique hnd hmem]
  | .fixed t n, v, w, h => by
    obtain ⟨hint, hn, ⟨s, hw⟩, l, m, hl, rfl, rfl, hall⟩ := h
    obtain ⟨hs, hs0⟩ := size_of_width t s hw
    obtain ⟨parts, h1, h2, h3, h4⟩ := mapM_enc hw (C09_roundtrip lower t) hall
    have hne : l ≠ [] := by intro h0; rw [h0] at hl; simp at hl; omega
    refine ⟨parts.flatten ++ List.replicate ((n - (l.length - 1)) * s) 0, ?_, ?_, by intro n hn; simp [width] at hn⟩
    · simp only [enc, hs, bind_ok, items, ← hl, List.take_length, h1, Nat.lt_irrefl, if_false, hne]; rfl
    · simp only [dec, hint, hs, bind_ok]
      have : Inhabited Val := ⟨.bool false⟩
      rw [← hl, ← h3, decLoop_flatten (dec t) h2 h4]; rfl
  | .var t, v, w, h => by
    obtain ⟨⟨s, hw⟩, l, m, rfl, rfl, hall⟩ := h
    obtain ⟨hs, hs0⟩ := size_of_width t s hw
    obtain ⟨parts, h1, h2, h3, h4⟩ := mapM_enc hw (C09_roundtrip lower t) hall
    refine ⟨parts.flatten, by simp only [enc, items, bind_ok, h1]; rfl, ?_, by intro n hn; simp [width] at hn⟩
    cases hint : asIntTy t with
    | none =>
      have : Inhabited Val := ⟨.bool false⟩
      have hd := decLoop_flatten (dec t) h2 h4 []
      rw [List.append_nil] at hd
      simp only [dec, hint, hs, bind_ok, hs0, if_false, flatten_length h2, Nat.mul_div_cancel _ (Nat.pos_of_ne_zero hs0), hd]
      rfl
    | some p =>
      cases t <;> simp [asIntTy] at hint
      rename_i s' g
      subst hint
      simp [width] at hw
      obtain ⟨hss, rfl⟩ := hw
      obtain ⟨is, hi, rfl⟩ := decInts_flatten (by simpa [intSizeOk] using hss) h2 h4
      simp only [dec, asIntTy, hi, bind_ok]; rfl
  | .strArray named, v, w, h => by
    obtain ⟨rfl, ss, hss, rfl, rfl⟩ := h
    obtain ⟨b, h1, h2⟩ := Utf16.C05_string_array hss
    have : (ss.map Val.text).mapM asText = .ok ss := by
      clear hss h1 h2
      induction ss with
      | nil => rfl
      | cons s ss ih => rw [List.map_cons, List.mapM_cons, ih]; rfl
    refine ⟨b, by simp only [enc, items, bind_ok, this, h1, if_true], by simp only [dec, h2, bind_ok]; rfl,
      by intro n hn; simp [width] at hn⟩
  | .set t, v, w, h => by
    obtain ⟨⟨s, hw⟩, l, m, hh, rfl, rfl, hall⟩ := h
    obtain ⟨hs, hs0⟩ := size_of_width t s hw
    obtain ⟨parts, h1, h2, h3, h4⟩ := mapM_enc hw (C09_roundtrip lower t) hall
    refine ⟨parts.flatten, by simp only [enc, items, bind_ok, h1]; rfl, ?_, by intro n hn; simp [width] at hn⟩
    have : Inhabited Val := ⟨.bool false⟩
    have hd := decLoop_flatten (dec t) h2 h4 []
    rw [List.append_nil] at hd
    simp only [dec, hs, bind_ok, hs0, if_false, flatten_length h2, Nat.mul_div_cancel _ (Nat.pos_of_ne_zero hs0), hd]
    rw [if_pos hh]; rfl
  | .str, v, w, h => by
    obtain ⟨s, hs, rfl, rfl⟩ := h
    obtain ⟨b, h1, _, h2⟩ := Utf16.C05_string hs.1
    exact ⟨b, by simp only [enc, asText, bind_ok, h1], by simp only [dec, h2 hs.2, bind_ok]; rfl, by intro n hn; simp [width] at hn⟩
  | .record fs, v, w, h => by
    obtain ⟨hnd, d, d', hd, rfl, rfl, hf⟩ := h
    obtain ⟨b, h1, h2, h3⟩ := C09_roundtrip_fields lower fs d d' hd hf
    refine ⟨b, by simp only [enc, h1], ?_, ?_⟩
    · have := h2 [] [] (by simpa using hnd)
      rw [List.append_nil] at this
      simp only [dec, this, bind_ok]; rfl
    · intro n hn
      simp only [width] at hn
      split at hn
      · rename_i k hk
        cases hn; exact h3 _ hk
      · cases hn
  | .mobid, v, w, h => by
    obtain ⟨b, hb, rfl, rfl⟩ := h
    have : b ≠ [] := by rintro rfl; simp at hb
    exact ⟨b, rfl, by simp [dec, this], by intro n hn; simp [width] at hn; omega⟩
  | .auid, v, w, h => by
    obtain ⟨b, hb, rfl, rfl⟩ := h
    have : b ≠ [] := by rintro rfl; simp at hb
    exact ⟨b, rfl, by simp [dec, this], by intro n hn; simp [width] at hn; omega⟩
  | .rational, v, w, h => by
    obtain ⟨n, d, hn, hd, hd0, hv, rfl⟩ := h
    obtain ⟨a, ea, la, da⟩ := encInt_spec (by decide) hn
    obtain ⟨b, eb, lb, db⟩ := encInt_spec (by decide) hd
    have hr : asRational v = .ok (n, d) := by
      rcases hv with rfl | ⟨rfl, rfl⟩ <;> rfl
    refine ⟨a ++ b, by simp only [enc, hr, bind_ok, ea, eb]; rfl, ?_, by intro k hk; simp [width] at hk; simp [la, lb]; omega⟩
    have s1 : slice (a ++ b) 0 4 = a := by rw [slice_append_left (by omega), slice_full (by omega)]
    have s2 : slice (a ++ b) 4 8 = b := by rw [slice_append_right (by omega), la, slice_full (by omega)]
    simp only [dec, s1, s2, da, db, bind_ok, mkRational, if_neg hd0]
  | .date, v, w, h => by
    obtain ⟨y, m, d, hv, rfl, rfl⟩ := h
    obtain ⟨b, h1, h2, h3⟩ := encDate_spec hv
    have := h3 []
    rw [List.append_nil] at this
    exact ⟨b, by simp only [enc, h1], by simp only [dec, this], by intro k hk; simp [width] at hk; omega⟩
  | .time, v, w, h => by
    obtain ⟨hh, m, s, us, hv, rfl, rfl⟩ := h
    obtain ⟨b, h1, h2, h3⟩ := encTime_spec hv
    exact ⟨b, by simp only [enc, h1], by simp only [dec, h3], by intro k hk; simp [width] at hk; omega⟩
  | .stamp, v, w, h => by
    obtain ⟨y, mo, d, hh, m, s, us, hv, hv2, rfl, rfl⟩ := h
    obtain ⟨a, a1, a2, a3⟩ := encDate_spec hv
    obtain ⟨b, b1, b2, b3⟩ := encTime_spec hv2
    have s1 : slice (a ++ b) 0 4 = a := by rw [slice_append_left (by omega), slice_full (by omega)]
    have s2 : slice (a ++ b) 4 8 = b := by rw [slice_append_right (by omega), a2, slice_full (by omega)]
    have a3' := a3 []
    rw [List.append_nil] at a3'
    refine ⟨a ++ b, by simp only [enc, encStamp, a1, b1, bind_ok]; rfl, ?_, by intro k hk; simp [width] at hk; simp [a2, b2]; omega⟩
    simp only [dec, decStamp, s1, s2, a3', b3, bind_ok]; rfl
  | .rename t, v, w, h => by
    obtain ⟨b, h1, h2, _⟩ := C09_roundtrip lower t v w h
    exact ⟨b, by simp only [enc, h1], by simp only [dec, h2], by intro n hn; simp [width] at hn⟩
theorem C09_roundtrip_fields (lower : Str → Str) : ∀ (fs : Fields) (d d' : List (Str × Val)), (d.map (·.1)).Nodup →
    ReadsFields lower fs d d' →
    ∃ b, encFields lower fs d = .ok b ∧
      (∀ acc tail, (acc.map (·.1) ++ fieldNames fs).Nodup → decFields fs (b ++ tail) acc = .ok (acc ++ d')) ∧
      ∀ n, widthFields fs = some n → b.length = n
  | .nil, d, d', hd, h => by
    cases h
    refine ⟨[], rfl, ?_, by intro n hn; simp [widthFields] at hn; simp [hn]⟩
    intro acc tail _
    simp [decFields]
  | .cons name t rest, d, d', hd, h => by
    obtain ⟨⟨s, hw⟩, x, y, d'', hx, rfl, hr, hrest⟩ := h
    have hs := (size_of_width t s hw).1
    obtain ⟨a, a1, a2, a3⟩ := C09_roundtrip lower t x y hr
    obtain ⟨b, b1, b2, b3⟩ := C09_roundtrip_fields lower rest d d'' hd hrest
    have ha := a3 _ hw
    refine ⟨a ++ b, by simp only [encFields, dictGet_of_mem hd hx, bind_ok, a1, b1]; rfl, ?_, ?_⟩
    · intro acc tail hnd
      have ht : (a ++ b ++ tail).take s = a := by
        rw [List.append_assoc, List.take_append_of_le_length (by omega), List.take_of_length_le (by omega)]
      have hdr : (a ++ b ++ tail).drop s = b ++ tail := by
        rw [List.append_assoc, ← ha, List.drop_left]
      simp only [fieldNames] at hnd
      have hfresh : name ∉ acc.map (·.1) := by
        rw [List.nodup_append] at hnd
        intro hm
        exact hnd.2.2 _ hm _ (by simp) rfl
      simp only [decFields, hs, bind_ok, ht, hdr, a2, dictSet_fresh hfresh]
      rw [b2 _ _ (by simpa [List.append_assoc] using hnd)]
      simp
    · intro n hn
      simp only [widthFields, hw] at hn
      split at hn
      · rename_i p q hp hq
        cases hp; cases hn
        simp [ha, b3 _ hq]
      · cases hn
end

end Verif.Types
