import Verif.Model.Utf16
/-!
# Property and class definitions as objects (`/repo/src/aaf2/metadict.py` 34-125, 128-170; `/repo/src/aaf2/properties.py` 1293-1341)

How a definition keeps its name, pid, identifier, type and flags in its property entries, beside copies in attributes.

Simplifications: an AUID is its 16 bytes (C01); a `Property` is its data; how entries are written to a file and read from it is C50 and C68, here the file keeps the
entries of the definition, which is written if it is marked as changed.  A new definition is put into a class of the file at once.  The parent and the set of properties of a class are in C54.
-/
namespace Verif.PropDef
open Verif.Utf16 (Str)

/-- `property_entries` with the data of each property (properties.py:70-78). -/
abbrev Entries := List (Nat × Option Bytes)

/-- `property_entries.get(pid)` (metadict.py:60, 93, 109). -/
def get (e : Entries) (pid : Nat) : Option (Option Bytes) := (e.find? fun x => x.1 == pid).map (·.2)

/-- `property_entries[pid] = p` (properties.py:1297) and `property_entries[pid].data = …` (metadict.py:66, 86). -/
def put (e : Entries) (pid : Nat) (b : Option Bytes) : Entries := (pid, b) :: e.filter fun x => x.1 != pid

/-- `add_string_property` (properties.py:1293-1298): no data for an empty text. -/
def addString (e : Entries) (pid : Nat) (s : Str) : Res Entries :=
  if s = [] then .ok (put e pid none) else do
    let b ← Utf16.encode s
    return put e pid (some b)

/-- `add_bool_property` (properties.py:1300-1307). -/
def addBool (e : Entries) (pid : Nat) (v : Bool) : Entries := put e pid (some (if v then [1] else [0]))

/-- `encode_u16le` (utils.py:90-91). -/
def u16 (v : Nat) : Res Bytes := if v < 65536 then .ok (leN 2 v) else .error .structError

/-- `add_u16le_property` (properties.py:1316-1321), for a number. -/
def addU16 (e : Entries) (pid v : Nat) : Res Entries := do
  let b ← u16 v
  return put e pid (some b)

/-- `add_auid_property` (properties.py:1331-1341): `None` is the zero AUID. -/
def addAuid (e : Entries) (pid : Nat) (v : Option Bytes) : Entries := put e pid (some (v.getD (List.replicate 16 0)))

/-- A `PropertyDef` (metadict.py:34-53): `_property_name`, `_auid`, `_typedef_id`; what the file has of it; is it in `modified` (file.py:71-87)? -/
structure PDef where
  entries : Entries
  name : Option Str
  id : Option Bytes
  type : Option Bytes
  disk : Entries
  marked : Bool
  deriving DecidableEq

/-- `PropertyDef(root, name, auid, pid, typedef, optional, unique)` (metadict.py:39-53) and putting it into a class, which marks it (metadict.py:265; core.py:200-208). -/
def create (name : Str) (id : Option Bytes) (pid : Nat) (type : Option Bytes) (opt uniq : Bool) : Res PDef := do
  let e ← addString [] 0x0006 name
  let e := addBool e 0x000C opt
  let e := addBool e 0x000E uniq
  let e ← addU16 e 0x000D pid
  let e := addAuid e 0x0005 id
  let e := addAuid e 0x000B type
  return ⟨e, some name, none, none, [], true⟩

/-- `write_objects` (file.py:132-144): the definition is written if it is marked, and then is not marked. -/
def save (d : PDef) : PDef := { d with disk := if d.marked then d.entries else d.disk, marked := false }

/-- The file is closed, which saves it, and opened again: `obj_class.__new__` makes an object without copies (file.py:118-126; metadict.py:39-44). -/
def reopen (d : PDef) : PDef := ⟨(save d).disk, none, none, none, (save d).disk, false⟩

/-- `decode_utf16le(p.data)` of an entry that may not be there (metadict.py:60-61). -/
def textOf : Option (Option Bytes) → Res Str
  | some (some b) => Utf16.decode b
  | _ => .error .attributeError

/-- `property_name` (metadict.py:55-62): the copy counts if it is not empty. -/
def readName (d : PDef) : PDef × Res Str :=
  match d.name with
  | some (c :: s) => (d, .ok (c :: s))
  | _ =>
    match textOf (get d.entries 0x0006) with
    | .ok s => ({ d with name := some s }, .ok s)
    | .error e => (d, .error e)

/-- `AUID(bytes_le=p.data)` (metadict.py:93-94, 109-110; auid.py:10-31): the number of bytes is not checked. -/
def auidOf : Option (Option Bytes) → Res Bytes
  | some (some b) => if b = [] then .error .typeError else .ok b
  | some none => .error .typeError
  | none => .error .attributeError

/-- `auid` (metadict.py:88-95). -/
def readId (d : PDef) : PDef × Res Bytes :=
  match d.id with
  | some b => (d, .ok b)
  | none =>
    match auidOf (get d.entries 0x0005) with
    | .ok b => ({ d with id := some b }, .ok b)
    | .error e => (d, .error e)

/-- `typedef_id` (metadict.py:104-111). -/
def readType (d : PDef) : PDef × Res Bytes :=
  match d.type with
  | some b => (d, .ok b)
  | none =>
    match auidOf (get d.entries 0x000B) with
    | .ok b => ({ d with type := some b }, .ok b)
    | .error e => (d, .error e)

/-- `read_u16le` of the data (metadict.py:79-82). -/
def numOf : Option (Option Bytes) → Res Nat
  | some (some b) => if b.length < 2 then .error .structError else .ok (unLe (b.take 2))
  | some none => .error .structError
  | none => .error .keyError

/-- `optional` (metadict.py:100-102) and `concrete` (metadict.py:160-162). -/
def flagOf : Option (Option Bytes) → Res Bool
  | some b => .ok (decide (b = some [1]))
  | none => .error .keyError

/-- `unique` (metadict.py:73-77): false if there is no entry. -/
def uniqueOf : Option (Option Bytes) → Res Bool
  | some b => .ok (decide (b = some [1]))
  | none => .ok false

/-- What a program does with a definition (metadict.py:55-111; file.py:361-370). -/
inductive Op where
  | name | id | type | pid | optional | unique
  | setName (s : Str)
  | setPid (n : Nat)
  | save
  | reopen
  deriving DecidableEq

/-- What it gets (metadict.py:55-111). -/
inductive Ans where
  | text (s : Str)
  | auid (b : Bytes)
  | num (n : Nat)
  | flag (b : Bool)
  | done
  deriving DecidableEq

/-- The setter of `property_name` (metadict.py:64-67): the text is encoded first; the definition is not marked. -/
def setName (d : PDef) (s : Str) : PDef × Res Ans :=
  match Utf16.encode s with
  | .ok b => ({ d with entries := put d.entries 0x0006 (some b), name := some s }, .ok .done)
  | .error e => (d, .error e)

/-- The setter of `pid` (metadict.py:84-86); the definition is not marked. -/
def setPid (d : PDef) (n : Nat) : PDef × Res Ans :=
  match u16 n with
  | .ok b => ({ d with entries := put d.entries 0x000D (some b) }, .ok .done)
  | .error e => (d, .error e)

/-- One call (metadict.py:55-111). -/
def step (d : PDef) : Op → PDef × Res Ans
  | .name => ((readName d).1, (readName d).2.map .text)
  | .id => ((readId d).1, (readId d).2.map .auid)
  | .type => ((readType d).1, (readType d).2.map .auid)
  | .pid => (d, (numOf (get d.entries 0x000D)).map .num)
  | .optional => (d, (flagOf (get d.entries 0x000C)).map .flag)
  | .unique => (d, (uniqueOf (get d.entries 0x000E)).map .flag)
  | .setName s => setName d s
  | .setPid n => setPid d n
  | .save => (save d, .ok .done)
  | .reopen => (reopen d, .ok .done)

/-- Calls one after another, errors caught (metadict.py:55-111). -/
def run (d : PDef) : List Op → PDef × List (Res Ans)
  | [] => (d, [])
  | o :: os => ((run (step d o).1 os).1, (step d o).2 :: (run (step d o).1 os).2)

/-- `ClassDef(root, name, class_auid, …, concrete)` (metadict.py:132-145), without parent and properties. -/
def createClass (name : Str) (id : Option Bytes) (concrete : Bool) : Res Entries := do
  let e ← addString [] 0x0006 name
  let e := addAuid e 0x0005 id
  return addBool e 0x000A concrete

/-- `class_name` (metadict.py:164-168): `None` if there is no data. -/
def className (e : Entries) : Res (Option Str) :=
  match get e 0x0006 with
  | some (some b) => (Utf16.decode b).map some
  | some none => .ok none
  | none => .error .keyError

/-- `ClassDef.auid` (metadict.py:150-154), which has data always. -/
def classId (e : Entries) : Res Bytes := auidOf (get e 0x0005)

/-- `concrete` (metadict.py:160-162). -/
def concrete (e : Entries) : Res Bool := flagOf (get e 0x000A)

end Verif.PropDef
