import Verif.Model.Types
/-!
# Enumeration definitions: the stored tables and their registration (src/aaf2/types.py:219-311, 766-827)
-/
namespace Verif.Enum
open Verif.Types Verif.Utf16

/-- `properties.add_s64le_array_property`, properties.py:1355-1361, and `pack("<nq", *values)`. -/
def packInts : List Int → Res Bytes
  | [] => .ok []
  | i :: is => do
    let a ← encInt 8 true i
    let b ← packInts is
    return a ++ b

/-- `unpack("<nq", data)`. (Used in `EnumDef.elements`: types.py:249-256.) -/
def unpackInts (n : Nat) (b : Bytes) : Res (List Int) :=
  if b.length ≠ 8 * n then .error .structError
  else .ok ((List.range n).map fun i => unpackInt 8 true (slice b (i * 8) ((i + 1) * 8)))

/-- `dict(zip(values, names))`. (Used in `EnumDef.elements`: types.py:249-256.) -/
def dictZip {κ : Type} [DecidableEq κ] (ks : List κ) (ns : List Str) : List (κ × Str) :=
  (ks.zip ns).foldl (fun d p => dictSet d p.1 p.2) []

/-- The two property entries of a `TypeDefEnum`. (Used in `EnumDef.new`: types.py:227-240.) -/
structure EnumDef where
  names : Bytes
  values : Bytes
  deriving DecidableEq

/-- `TypeDefEnum.__new__`, types.py:227-240; the dict in iteration order. -/
def EnumDef.new (elements : List (Int × Str)) : Res EnumDef := do
  let n ← encodeArray (elements.map (·.2))
  let v ← packInts (elements.map (·.1))
  return ⟨n, v⟩

/-- `elements`, types.py:249-256. -/
def EnumDef.elements (e : EnumDef) : Res (List (Int × Str)) := do
  let names ← decodeArray e.names
  let values ← unpackInts names.length e.values
  return dictZip values names

/-- Insertion in an ascending list of codes. (Used in `sortCodes`: types.py:263-280.) -/
def insertCode (p : Int × Str) : List (Int × Str) → List (Int × Str)
  | [] => [p]
  | q :: qs => if p.1 ≤ q.1 then p :: q :: qs else q :: insertCode p qs

/-- `sorted(elements.items())`: by code, since codes are distinct keys of a dict. (Used in `EnumDef.register`: types.py:263-280.) -/
def sortCodes (l : List (Int × Str)) : List (Int × Str) := l.foldr insertCode []

/-- `register_element`, types.py:263-280: the state afterwards and the result. The names are written before the
codes are packed, so they stay written when packing raises. -/
def EnumDef.register (e : EnumDef) (name : Str) (code : Int) : EnumDef × Res Unit :=
  match e.elements with
  | .error x => (e, .error x)
  | .ok els =>
    if els.any (fun p => p.1 = code ∨ p.2 = name) then (e, .ok ())
    else
      let l := sortCodes els ++ [(code, name)]
      match encodeArray (l.map (·.2)) with
      | .error x => (e, .error x)
      | .ok n =>
        match packInts (l.map (·.1)) with
        | .error x => ({ e with names := n }, .error x)
        | .ok v => (⟨n, v⟩, .ok ())

/-- The two property entries of a `TypeDefExtEnum`. (Used in `ExtDef.new`: types.py:789-802.) -/
structure ExtDef where
  names : Bytes
  values : Bytes
  deriving DecidableEq

/-- `TypeDefExtEnum.__new__`, types.py:789-802; keys are 16 byte AUIDs. -/
def ExtDef.new (elements : List (Bytes × Str)) : Res ExtDef := do
  let n ← encodeArray (elements.map (·.2))
  return ⟨n, (elements.map (·.1)).flatten⟩

/-- `iter_auid_array`, types.py:768-779; `fuel` is the number of items, at most the length. -/
def iterAuids : Nat → Bytes → Res (List Bytes)
  | _, [] => .ok []
  | 0, _ => .error .noFuel
  | fuel + 1, b =>
    if b.length < 16 then .error .valueError
    else do
      let rest ← iterAuids fuel (b.drop 16)
      return b.take 16 :: rest

/-- `elements`, types.py:826-830. -/
def ExtDef.elements (e : ExtDef) : Res (List (Bytes × Str)) := do
  let names ← decodeArray e.names
  let values ← iterAuids e.values.length e.values
  return dictZip values names

/-- `register_element`, types.py:807-824 (AUID argument). -/
def ExtDef.register (e : ExtDef) (name : Str) (key : Bytes) : ExtDef × Res Unit :=
  match e.elements with
  | .error x => (e, .error x)
  | .ok els =>
    if els.any (fun p => p.1 = key ∨ p.2 = name) then (e, .ok ())
    else
      let l := els ++ [(key, name)]
      match encodeArray (l.map (·.2)) with
      | .error x => (e, .error x)
      | .ok n => (⟨n, (l.map (·.1)).flatten⟩, .ok ())

end Verif.Enum
