import Verif.Model.Volume
import Verif.Model.PropStream
import Verif.Model.Names
import Verif.Model.Utf16
/-!
# Objects in the container

How an object is laid out in its storage (`/repo/src/aaf2/core.py` 70-167, `properties.py` 200-260,
329-334, 463-502, 738-809, 1035-1056, 1126-1169, `file.py` 101-130, 306-343, `cfb.py` 999-1033): a
stream `properties` with the table and the data, an index stream for each vector, set or array of
weak references, a stream for each stream property, the class id in the directory entry of the
storage.  All of it runs on the container of `Volume`.

Simplifications: `DirEntry.get(name)` looks into the listing of the entry at hand, here it is found
from the root by its path; the caller has the entry of a storage, here its path.  The property
objects are what is stored of them.  `write_properties` does not validate.
-/
namespace Verif.Store
open Verif.Rb (Name)
open Verif.Volume
open Verif.PropStream (Entry VecIndex SetIndex WeakIndex WeakRef)

/-- What is stored of a property: bytes (`Property`, `UniqueIdProperty`, `OpaqueStreamProperty`), a
weak reference, the name of the stream of a stream property, the name of the storage of an object,
the name and content of an index (properties.py:1266-1291). -/
inductive Body where
  | data (b : Bytes)
  | weak (w : WeakRef)
  | stream (name : Name)
  | one (name : Name)
  | vec (name : Name) (ix : VecIndex)
  | set (name : Name) (ix : SetIndex)
  | weaks (name : Name) (ix : WeakIndex)
  deriving DecidableEq

/-- One of `property_entries`. (Used in `writeIndexes`: core.py:160-167.) -/
structure Item where
  pid : Nat
  format : Nat
  body : Body
  deriving DecidableEq

/-- `encode_utf16le` of a name (utils.py:87-88). -/
def encName (n : Name) : Res Bytes := Utf16.encode (n.map Char.toNat)

/-- `decode_utf16le` (utils.py:81-85). -/
def decName (b : Bytes) : Res Name := do
  let s ← Utf16.decode b
  .ok (s.map Char.ofNat)

/-- `p.data` (properties.py:212-213, 333-334, 463-464, 738-739, 1046-1056, 1126-1127). -/
def Body.bytes : Body → Res Bytes
  | .data b => .ok b
  | .weak w => PropStream.encWeakRef w
  | .stream n => do
    let b ← encName n
    .ok (0x55 :: b)
  | .one n | .vec n _ | .set n _ | .weaks n _ => encName n

/-- `index_name + " index"` (properties.py:473, 491, 742, 790, 1133, 1157). -/
def indexFile (n : Name) : Name := n ++ [' ', 'i', 'n', 'd', 'e', 'x']

/-- The index stream of a property: its name and what `write_index` puts there
(properties.py:489-502, 788-806, 1155-1169). -/
def Body.index : Body → Option (Name × Res Bytes)
  | .vec n ix => some (indexFile n, PropStream.writeVec ix)
  | .set n ix => some (indexFile n, PropStream.writeSet ix)
  | .weaks n ix => some (indexFile n, PropStream.writeWeak ix)
  | _ => none

/-- `self.path() + sep + name` (cfb.py:1003-1010, 1027-1033). -/
def join (dir name : Name) : Name := if dir = ['/'] then dir ++ name else dir ++ '/' :: name

/-- `dir.touch(name).open('rw')`, `write(content)`, `truncate()` (core.py:139, 157-158): the content is
made after the stream is opened. -/
def writeStream (up : Name → Name) (v : Vol) (path : Name) (content : Res Bytes) : Res (Res Unit × Vol) := do
  let (x, v) ← openPath up v path .rw
  match x with
  | .ok (.ent (some e)) =>
    match content with
    | .error er => .ok (.error er, v)
    | .ok b => do
      let (_, c) ← Fat.cstep v.file (.io (.write e b))
      let (_, c) ← Fat.cstep c (.io (.truncateHere e))
      .ok (.ok (), ⟨v.tree, c⟩)
  | .ok _ => .ok (.error .attributeError, v)
  | .error er => .ok (.error er, v)

/-- The last loop of `write_properties` (core.py:160-167). -/
def writeIndexes (up : Name → Name) (v : Vol) (dir : Name) : List Item → Res (Res Unit × Vol)
  | [] => .ok (.ok (), v)
  | i :: r =>
    match i.body.index with
    | none => writeIndexes up v dir r
    | some (n, content) => do
      let (x, v) ← writeStream up v (join dir n) content
      match x with
      | .error e => .ok (.error e, v)
      | .ok _ => writeIndexes up v dir r

/-- The entries of the property table. (Used in `content`: core.py:141-157.) -/
def entries : List Item → Res (List Entry)
  | [] => .ok []
  | i :: r => do
    let b ← i.body.bytes
    let es ← entries r
    .ok (⟨i.pid, i.format, b⟩ :: es)

/-- The content of the stream `properties` (core.py:141-157). -/
def content (items : List Item) : Res Bytes := do
  let es ← entries items
  PropStream.write es

/-- `AAFObject.write_properties` without validation (core.py:135-167). -/
def writeProperties (up : Name → Name) (v : Vol) (dir : Name) (items : List Item) : Res (Res Unit × Vol) := do
  let (x, v) ← writeStream up v (join dir Names.propertiesName) (content items)
  match x with
  | .error e => .ok (.error e, v)
  | .ok _ => writeIndexes up v dir items

/-- `dir.get(name)`, and if there is a stream `open('r').read()`.  `DirEntry.open` of a storage
raises (cfb.py:1011-1014). -/
def readStream (up : Name → Name) (v : Vol) (path : Name) : Res (Res (Option Bytes) × Vol) := do
  let (x, v) ← dirCall up v (.find path)
  match x with
  | .error e => .ok (.error e, v)
  | .ok (.ent (some e)) => do
    let (y, v) ← openOld v e .r
    match y with
    | .error er => .ok (.error er, v)
    | .ok _ => do
      let (o, c) ← Fat.cstep v.file (.io (.read e (-1)))
      match o with
      | some (.bytes b) => .ok (.ok (some b), ⟨v.tree, c⟩)
      | _ => .ok (.error .attributeError, ⟨v.tree, c⟩)
  | .ok _ => .ok (.ok none, v)

/-- `decode` of a property, with what it reads from an index stream (properties.py:207-210, 329-331,
466-487, 741-786, 1035-1044, 1129-1153). -/
def decode (e : Entry) : Res (Body ⊕ Name × (Bytes → Res Body)) :=
  if e.format = 0x42 then
    if e.data.take 1 = [0x55] then do
      let n ← decName (e.data.drop 1)
      .ok (.inl (.stream n))
    else .error .assertion
  else if e.format = 0x22 then do
    let n ← decName e.data
    .ok (.inl (.one n))
  else if e.format = 0x32 then do
    let n ← decName e.data
    .ok (.inr (n, fun b => do .ok (.vec n (← PropStream.readVec b))))
  else if e.format = 0x3A then do
    let n ← decName e.data
    .ok (.inr (n, fun b => do .ok (.set n (← PropStream.readSet b))))
  else if e.format = 0x12 ∨ e.format = 0x1A then do
    let n ← decName e.data
    .ok (.inr (n, fun b => do .ok (.weaks n (← PropStream.readWeak b))))
  else if e.format = 0x02 ∨ e.format = 0x03 then do
    let w ← PropStream.decWeakRef e.data
    .ok (.inl (.weak w))
  else .ok (.inl (.data e.data))

/-- The second loop of `read_properties` (core.py:104-109). -/
def readItems (up : Name → Name) (v : Vol) (dir : Name) : List Entry → Res (Res (List Item) × Vol)
  | [] => .ok (.ok [], v)
  | e :: r =>
    match decode e with
    | .error er => .ok (.error er, v)
    | .ok (.inl b) => do
      let (x, v) ← readItems up v dir r
      .ok (do .ok (⟨e.pid, e.format, b⟩ :: (← x)), v)
    | .ok (.inr (n, f)) => do
      let (x, v) ← readStream up v (join dir (indexFile n))
      match x with
      | .error er => .ok (.error er, v)
      | .ok none => .ok (.error .propertyError, v)
      | .ok (some ib) =>
        match f ib with
        | .error er => .ok (.error er, v)
        | .ok b => do
          let (x, v) ← readItems up v dir r
          .ok (do .ok (⟨e.pid, e.format, b⟩ :: (← x)), v)

/-- `AAFObject.read_properties` (core.py:70-109): the entries of the object. -/
def readProperties (up : Name → Name) (v : Vol) (dir : Name) : Res (Res (List Item) × Vol) := do
  let (x, v) ← readStream up v (join dir Names.propertiesName)
  match x with
  | .error e => .ok (.error e, v)
  | .ok none => .ok (.ok [], v)
  | .ok (some b) =>
    match PropStream.read b with
    | .error e => .ok (.error e, v)
    | .ok es => readItems up v dir es

/-- `dir_entry = dir.get(name)`, and `dir.makedir(name)` if there is none (properties.py:396-398,
680-682, 909-911; cfb.py:1025-1033). -/
def makeDir (up : Name → Name) (v : Vol) (path : Name) : Res (Res Unit × Vol) := do
  let (x, v) ← dirCall up v (.find path)
  match x with
  | .error e => .ok (.error e, v)
  | .ok (.ent (some _)) => .ok (.ok (), v)
  | .ok _ => do
    let (y, v) ← dirCall up v (.create path 1)
    match y with
    | .error e => .ok (.error e, v)
    | .ok _ => .ok (.ok (), v)

/-- `dir.class_id = c` (core.py:205, cfb.py:603-609). -/
def setClass (up : Name → Name) (v : Vol) (path : Name) (c : Bytes) : Res (Res Unit × Vol) := do
  let (x, v) ← dirCall up v (.find path)
  match x with
  | .error e => .ok (.error e, v)
  | .ok (.ent (some e)) => do
    let v ← setStamp v e (c ++ (stampOf (v.file.recs e)).drop 16)
    .ok (.ok (), v)
  | .ok _ => .ok (.error .attributeError, v)

/-- `dir.class_id` (cfb.py:596-601). -/
def getClass (up : Name → Name) (v : Vol) (path : Name) : Res (Res (Option Bytes) × Vol) := do
  let (x, v) ← dirCall up v (.find path)
  match x with
  | .error e => .ok (.error e, v)
  | .ok (.ent (some e)) =>
    let c := (stampOf (v.file.recs e)).take 16
    .ok (.ok (if c = List.replicate 16 0 then none else some c), v)
  | .ok _ => .ok (.error .attributeError, v)

/-- Several `write`. (Used in `putStream`: properties.py:227-252.) -/
def writeAll : List Bytes → Vol → Nat → Res Vol
  | [], v, _ => .ok v
  | b :: r, v, e => do
    let (_, c) ← Fat.cstep v.file (.io (.write e b))
    writeAll r ⟨v.tree, c⟩ e

/-- `open(path, 'w')` and several `write` (properties.py:227-252 and file.py:328-343; the stream is
touched first in the former). -/
def putStream (up : Name → Name) (v : Vol) (path : Name) (chunks : List Bytes) : Res (Res Unit × Vol) := do
  let (x, v) ← openPath up v path .w
  match x with
  | .ok (.ent (some e)) => do
    let v ← writeAll chunks v e
    .ok (.ok (), v)
  | .ok _ => .ok (.error .attributeError, v)
  | .error er => .ok (.error er, v)

/-- `"/referenced properties"` (file.py:307, 329). -/
def refFile : Name :=
  ['r', 'e', 'f', 'e', 'r', 'e', 'n', 'c', 'e', 'd', ' ', 'p', 'r', 'o', 'p', 'e', 'r', 't', 'i', 'e', 's']

/-- `write_reference_properties` (file.py:328-343).  The numbers are packed one by one while the stream
is written; here all of them first. -/
def writeRefs (up : Name → Name) (v : Vol) (t : List (List Nat)) : Res (Res Unit × Vol) :=
  match PropStream.writePathTable t with
  | .error e => .ok (.error e, v)
  | .ok b => putStream up v (join ['/'] refFile) [b]

/-- `read_reference_properties` (file.py:306-326). -/
def readRefs (up : Name → Name) (v : Vol) : Res (Res (List (List Nat)) × Vol) := do
  let (x, v) ← readStream up v (join ['/'] refFile)
  match x with
  | .error e => .ok (.error e, v)
  | .ok none => .ok (.error .valueError, v)
  | .ok (some b) => .ok (PropStream.readPathTable b, v)

/-- Calls; `dir` is the path of a storage. (Made of `Item` core.py:160-167, `makeDir` properties.py:396-398, 680-682, 909-911, `setClass` core.py:205, `getClass` cfb.py:596-601 and others.) -/
inductive SOp where
  | makeDir (dir name : Name)
  | setClass (dir : Name) (c : Bytes)
  | getClass (dir : Name)
  | write (dir : Name) (items : List Item)
  | read (dir : Name)
  | putStream (dir name : Name) (chunks : List Bytes)
  | getStream (dir name : Name)
  | writeRefs (t : List (List Nat))
  | readRefs
  | reopen

/-- Results. (Made of `Item` core.py:160-167, `Body.bytes` properties.py:212-213, 333-334, 463-464, 738-739, 1046-1056, 1126-1127.) -/
inductive SOut where
  | unit
  | cls (c : Option Bytes)
  | items (l : List Item)
  | bytes (b : Option Bytes)
  | table (t : List (List Nat))
  deriving DecidableEq

/-- The result of a call as one of a history. (Made of `SOut` core.py:160-167.) -/
def as {α : Type} (f : α → SOut) (r : Res (Res α × Vol)) : Res (Res SOut × Vol) := do
  let (x, v) ← r
  .ok (x.map f, v)

/-- One call. (Made of `Body.bytes` properties.py:212-213, 333-334, 463-464, 738-739, 1046-1056, 1126-1127, `join` cfb.py:1003-1010, 1027-1033, `writeProperties` core.py:135-167, `readStream` cfb.py:1011-1014 and others.) -/
def sstep (up : Name → Name) (v : Vol) : SOp → Res (Res SOut × Vol)
  | .makeDir d n => as (fun _ => .unit) (makeDir up v (join d n))
  | .setClass d c => as (fun _ => .unit) (setClass up v d c)
  | .getClass d => as .cls (getClass up v d)
  | .write d l => as (fun _ => .unit) (writeProperties up v d l)
  | .read d => as .items (readProperties up v d)
  | .putStream d n l => as (fun _ => .unit) (putStream up v (join d n) l)
  | .getStream d n => as .bytes (readStream up v (join d n))
  | .writeRefs t => as (fun _ => .unit) (writeRefs up v t)
  | .readRefs => as .table (readRefs up v)
  | .reopen => do
    let v ← reopen v
    .ok (.ok .unit, v)

/-- A history. (Made of `SOp` core.py:160-167, `sstep` properties.py:212-213, 333-334, 463-464, 738-739, 1046-1056, 1126-1127.) -/
def srun (up : Name → Name) (v : Vol) : List SOp → Res (List (Res SOut) × Vol)
  | [] => .ok ([], v)
  | o :: r => do
    let (x, v) ← sstep up v o
    let (xs, v) ← srun up v r
    .ok (x :: xs, v)

end Verif.Store
