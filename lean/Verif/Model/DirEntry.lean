import Verif.Model.Utf16
import Verif.Model.Auid
/-!
# Directory entries (src/aaf2/cfb.py:469-660)

A `DirEntry` object holds its 128-byte record `data` and the memoised name `_name`.
`mark_modified` (cfb.py:661-670) does not touch the record and is not part of this model.
-/
namespace Verif.DirEntry

/-- `dir_types`, cfb.py:40-45. -/
def dirTypes : List (UInt8 × Text) :=
  [(0, ['e', 'm', 'p', 't', 'y']), (1, ['s', 't', 'o', 'r', 'a', 'g', 'e']),
   (2, ['s', 't', 'r', 'e', 'a', 'm']), (3, ['l', 'o', 'c', 'k', ' ', 'b', 'y', 't', 'e', 's']),
   (4, ['p', 'r', 'o', 'p', 'e', 'r', 't', 'y']),
   (5, ['r', 'o', 'o', 't', ' ', 's', 't', 'o', 'r', 'a', 'g', 'e'])]

/-- A `DirEntry`: `data` and `_name` (`none` is the sentinel), cfb.py:470-488. -/
structure Ent where
  data : Bytes
  cached : Option Utf16.Str
  deriving DecidableEq, Repr

/-- `unpack_u16le_from` / `unpack_u32le_from` / `unpack_u64le_from`, utils.py:134-155. -/
def u (data : Bytes) (off n : Nat) : Nat := unLe (slice data off (off + n))

/-- `struct.pack_into('<I', data, off, v)` and the `<H`, `<Q` forms: raises `struct.error` when `v` does
not fit, otherwise overwrites the bytes in place. (Used in `setName`: cfb.py:501-514.) -/
def packInto (data : Bytes) (off n v : Nat) : Res Bytes := do
  let b ← packLe n v
  return splice data off b

/-- `decode_sid`, utils.py:60-63. -/
def decodeSid (v : Nat) : Option Nat := if v = 0xFFFFFFFF then none else some v

/-- `encode_sid`, utils.py:69-72. -/
def encodeSid : Option Nat → Nat
  | none => 0xFFFFFFFF
  | some v => v

/-- The name decoded from the record, cfb.py:495-497. -/
def recName (data : Bytes) : Res Utf16.Str :=
  let nameSize := u data 64 2
  if nameSize ≤ 64 then Utf16.decode (data.take nameSize) else .error .assertion

/-- `name` getter, cfb.py:491-499. -/
def getName (e : Ent) : Res Utf16.Str × Ent :=
  match e.cached with
  | some n => (.ok n, e)
  | none =>
    match recName e.data with
    | .ok n => (.ok n, { e with cached := some n })
    | .error err => (.error err, e)

/-- `name` setter, cfb.py:501-514. -/
def setName (e : Ent) (value : Utf16.Str) : Res Ent := do
  let nameData ← Utf16.encodeRaw value
  let nameSize := nameData.length
  if nameSize ≤ 64 then
    let data := splice e.data 0 nameData
    let data := splice data nameSize (List.replicate (64 - nameSize) 0)
    let data ← packInto data 64 2 (min (nameSize + 2) 64)
    return ⟨data, some value⟩
  else .error .assertion

/-- `type` getter, cfb.py:516-518; `none` stands for the string "unknown". -/
def getType (data : Bytes) : Option Text := (dirTypes.find? fun p => p.1 == data.getD 66 0).map (·.2)

/-- `type` setter, cfb.py:520-531. -/
def setType (data : Bytes) (value : Text) : Res Bytes :=
  match dirTypes.find? fun p => p.2 == value with
  | none => .error .valueError
  | some p => .ok (data.set 66 p.1)

/-- `color` getter, cfb.py:533-537 (`true` = 'red'); `red` getter, cfb.py:550-554: the same test. -/
def getRed (data : Bytes) : Bool := if data.getD 67 0 = 1 then false else true

/-- `color` setter with 'red'/'black', cfb.py:539-548, and `red` setter, cfb.py:556-563. -/
def setRed (data : Bytes) (red : Bool) : Bytes := data.set 67 (if red then 0 else 1)

/-- `left_id`, `right_id`, `child_id`, `sector_id` getters, cfb.py:565-589, 641-644, with their offsets. -/
def getSid (data : Bytes) (off : Nat) : Option Nat := decodeSid (u data off 4)

/-- The corresponding setters, cfb.py:570-594, 646-649. -/
def setSid (data : Bytes) (off : Nat) (v : Option Nat) : Res Bytes := packInto data off 4 (encodeSid v)

/-- cfb.py:565-573 -/
def getLeft (d : Bytes) := getSid d 68
/-- cfb.py:575-584 -/
def getRight (d : Bytes) := getSid d 72
/-- cfb.py:586-594 -/
def getChild (d : Bytes) := getSid d 76
/-- cfb.py:641-649 -/
def getSector (d : Bytes) := getSid d 116
/-- cfb.py:565-573 -/
def setLeft (d : Bytes) := setSid d 68
/-- cfb.py:575-584 -/
def setRight (d : Bytes) := setSid d 72
/-- cfb.py:586-594 -/
def setChild (d : Bytes) := setSid d 76
/-- cfb.py:641-649 -/
def setSector (d : Bytes) := setSid d 116

/-- `class_id` getter, cfb.py:596-601. -/
def getClass (data : Bytes) : Option Bytes :=
  let v := slice data 80 96
  if Auid.int v = 0 then none else some v

/-- `class_id` setter, cfb.py:603-609 (`value.bytes_le` has 16 bytes; the slice assignment is `splice`). -/
def setClass (data : Bytes) : Option Bytes → Bytes
  | none => splice data 80 (List.replicate 16 0)
  | some v => splice data 80 v

/-- `flags`, cfb.py:611-619. -/
def getFlags (d : Bytes) := u d 96 4
/-- cfb.py:616-619 -/
def setFlags (d : Bytes) (v : Nat) := packInto d 96 4 v
/-- `create_time`, cfb.py:621-629. -/
def getCtime (d : Bytes) := u d 100 8
/-- cfb.py:626-629 -/
def setCtime (d : Bytes) (v : Nat) := packInto d 100 8 v
/-- `modify_time` getter, cfb.py:631-634. -/
def getMtime (d : Bytes) := u d 108 8
/-- `modify_time` setter, cfb.py:636-639: it packs into `bytes(self.data)`, an immutable copy, so that
`pack_into` raises TypeError for every value. -/
def setMtime (_ : Bytes) (_ : Nat) : Res Bytes := .error .typeError
/-- `byte_size`, cfb.py:651-659. -/
def getSize (d : Bytes) := u d 120 8
/-- cfb.py:656-659 -/
def setSize (d : Bytes) (v : Nat) := packInto d 120 8 v

/-- `DirEntry(storage, dir_id)` without data, cfb.py:472-488. -/
def fresh : Res Ent := do
  let d ← setLeft (List.replicate 128 0) none
  let d ← setRight d none
  let d ← setChild d none
  let d ← setSector d none
  return ⟨d, none⟩

end Verif.DirEntry
