import Verif.Model.DirTree
import Verif.Model.Session
/-!
# Paths, streams and sessions together

`DirTree` has the entries and their links, but no sectors; `Session` has sectors and records, but
records are opaque there.  Here both run side by side: each call on paths is done by the functions of
`DirTree`, the same ids are taken and freed in `Session`, and the links, names and colours it has
assigned are written to the records (cfb.py:501-592).  Opening a file makes the entries from the
records.

Simplifications: one `Stream` object per stream, as in `Session`; a record is written only if it has
changed, while the code also marks records that were assigned the value they had; when `insert` or
`pop` raise (`broken`) nothing more is modelled; at 2 ^ 32 - 1 directory entries the model stops with
`outOfRange`.
-/
namespace Verif.Volume
open Verif.Rb (Name)
open Verif.Tree (St)
open Verif.Fat (Cfb)

/-- A file (`CompoundFileBinary`): its entries, and its sectors and records. (Used in `dirCall`: cfb.py:1833-2140.) -/
structure Vol where
  tree : St
  file : Cfb

/-- The name in a record (`name` getter, cfb.py:491-499).  A record whose name cannot be decoded
raises in the code; here it has no name. -/
def nameOf (d : Bytes) : Name :=
  match DirEntry.recName d with
  | .ok n => n.map Char.ofNat
  | .error _ => []

/-- The setters of an entry (cfb.py:501-514, 556-594).  The root entry is in no tree: only its child
is assigned.  (In `RbDir` its id stands for the false root of `insert` and `pop` as well.) -/
def encodeEnt (t : St) (d : Bytes) (e : Nat) : Res Bytes := do
  let d ← DirEntry.setChild d (t.child e)
  if e = 0 then .ok d else do
    let d ← DirEntry.setLeft d (t.heap.ent e).left
    let d ← DirEntry.setRight d (t.heap.ent e).right
    let d := DirEntry.setRed d (t.heap.ent e).red
    let x ← DirEntry.setName ⟨d, none⟩ ((t.heap.ent e).key.map Char.toNat)
    .ok x.data

/-- The assignments to the records of these entries, each followed by `mark_modified`
(cfb.py:501-594, 661-670). -/
def saveEnts (t : St) : List Nat → Cfb → Res Cfb
  | [], c => .ok c
  | e :: r, c => do
    let d ← encodeEnt t (c.recs e) e
    let (_, c) ← if d = c.recs e then .ok (none, c) else Fat.cstep c (.edit e (d.take 116))
    saveEnts t r c

/-- `free_fat_chain` and `free_dir_entry` for some entries (cfb.py:1899-1903, 1912-1917). -/
def freeEnts : List Nat → Cfb → Res Cfb
  | [], c => .ok c
  | e :: r, c => do
    let (_, c) ← Fat.cstep c (.free e)
    freeEnts r c

/-- What a call does to sectors and to the list of free ids: a new entry (cfb.py:1851-1854), an id
that was taken before the name was refused (cfb.py:1851-1852), or freed entries. -/
def replay (t t' : St) (c : Cfb) (o : Tree.Op) (r : Res Tree.Out) : Res Cfb :=
  match o, r with
  | .create _ k, .ok _ => do
    let (_, c) ← Fat.cstep c (.new (UInt8.ofNat k))
    .ok c
  | .create _ _, .error _ =>
    if t'.free = t.free ∧ t'.sectors = t.sectors then .ok c else do
      let (_, c) ← Fat.nextDirId c
      .ok c
  | .remove _, _ => freeEnts (t'.free.drop t.free.length) c
  | .rmtree _, _ => freeEnts (t'.free.drop t.free.length) c
  | _, _ => .ok c

/-- A call on paths (cfb.py:1833-2140) other than `makedirs`. -/
def dirCall (up : Name → Name) (v : Vol) (o : Tree.Op) : Res (Res Tree.Out × Vol) :=
  let (r, t) := Tree.step up v.tree o
  if t.broken then .ok (r, ⟨t, v.file⟩)
  else if 0xFFFFFFFF < t.maxDirs then .error .outOfRange
  else do
    let c ← replay v.tree t v.file o r
    let c ← saveEnts t c.live c
    .ok (r, ⟨t, c⟩)

/-- The loop of `makedirs` (cfb.py:2089-2095). -/
def mkdirs (up : Name → Name) (v : Vol) (root : Name) : List Name → Res (Res Tree.Out × Vol)
  | [] => .ok (.ok .unit, v)
  | item :: r => do
    let root := root ++ '/' :: item
    let (x, v) ← dirCall up v (.exist root)
    match x with
    | .ok (.bool true) => mkdirs up v root r
    | .ok _ => do
      let (y, v) ← dirCall up v (.create root 1)
      match y with
      | .error e => .ok (.error e, v)
      | .ok _ => mkdirs up v root r
    | .error e => .ok (.error e, v)

/-- `makedirs` (cfb.py:2084-2097). -/
def makedirs (up : Name → Name) (v : Vol) (path : Name) : Res (Res Tree.Out × Vol) :=
  if path.head? ≠ some '/' then .ok (.error .assertion, v)
  else do
    let (x, v) ← mkdirs up v [] (Tree.split (Tree.strip path))
    match x with
    | .error e => .ok (.error e, v)
    | .ok _ => dirCall up v (.find path)

/-- A call on paths. (Made of `Vol` cfb.py:1833-2140, `makedirs` cfb.py:2084-2097.) -/
def pathCall (up : Name → Name) (v : Vol) : Tree.Op → Res (Res Tree.Out × Vol)
  | .makedirs p => makedirs up v p
  | o => dirCall up v o

/-- The mode of `open` (cfb.py:2142-2165); `other` are all other texts, which `Stream` refuses
(cfb.py:90-91). -/
inductive Mode where
  | r | w | rw | other
  deriving DecidableEq, Repr

/-- `class_id`, flags and times of an entry (cfb.py:596-639): bytes 80 to 116 of its record. -/
def stampOf (d : Bytes) : Bytes := slice d 80 116

/-- Assigning them, followed by `mark_modified`. (Used in `openOld`: cfb.py:2151-2164.) -/
def setStamp (v : Vol) (e : Nat) (b : Bytes) : Res Vol := do
  let (_, c) ← Fat.cstep v.file (.edit e ((v.file.recs e).take 80 ++ b))
  .ok ⟨v.tree, c⟩

/-- `class_id = None` (cfb.py:603-609). -/
def noClass (b : Bytes) : Bytes := List.replicate 16 0 ++ b.drop 16

/-- Opening a stream that exists (cfb.py:2151-2164). -/
def openOld (v : Vol) (e : Nat) (m : Mode) : Res (Res Tree.Out × Vol) :=
  if v.tree.typ e ≠ 2 then .ok (.error .valueError, v)
  else match m with
    | .w => do
      let (_, c) ← Fat.cstep v.file (.io (.create e))
      let v ← setStamp ⟨v.tree, c⟩ e (noClass (stampOf (c.recs e)))
      .ok (.ok (.ent (some e)), v)
    | .other => .ok (.error .valueError, v)
    | _ => do
      let (_, c) ← Fat.cstep v.file (.io (.reopen e))
      .ok (.ok (.ent (some e)), ⟨v.tree, c⟩)

/-- `open` (cfb.py:2142-2165). -/
def openPath (up : Name → Name) (v : Vol) (path : Name) (m : Mode) : Res (Res Tree.Out × Vol) := do
  let (x, v) ← dirCall up v (.find path)
  match x with
  | .ok (.ent (some e)) => openOld v e m
  | .ok _ =>
    if m = .r then .ok (.error .valueError, v)
    else do
      let (y, v) ← dirCall up v (.create path 2)
      match y with
      | .error er => .ok (.error er, v)
      | .ok y => if m = .other then .ok (.error .valueError, v) else .ok (.ok y, v)
  | .error er => .ok (.error er, v)

/-- Type byte of an entry: entries that are not in use are never seen. (Used in `childOf`: cfb.py:586-589, 1949-1960.) -/
def typOf (c : Cfb) (e : Nat) : Nat := if e ∈ c.live then ((c.recs e).getD 66 0).toNat else 0

/-- Links, colour and name of an entry (cfb.py:491-589). -/
def heapOf (c : Cfb) : Rb.Heap Name :=
  ⟨fun e => {
    left := DirEntry.getLeft (c.recs e), right := DirEntry.getRight (c.recs e)
    red := DirEntry.getRed (c.recs e), key := nameOf (c.recs e) }⟩

/-- `child_id`, which is used of storages only (cfb.py:586-589, 1949-1960). -/
def childOf (c : Cfb) (e : Nat) : Option Nat :=
  if typOf c e = 1 ∨ typOf c e = 5 then DirEntry.getChild (c.recs e) else none

/-- The number of directory entries that the file has room for (cfb.py:1961-1962). -/
def roomOf (c : Cfb) : Nat := c.sys.fs.dirChain.length * (c.sys.fs.ss / 128)

/-- The storage whose listing gives an entry, which sets `entry.parent` (cfb.py:1963-1979). -/
def parentOf (c : Cfb) (e : Nat) : Option Nat :=
  (List.range (roomOf c)).find? fun i =>
    match Rb.listdir (roomOf c) ⟨heapOf c, childOf c i⟩ with
    | .ok d => d.any (·.2 == e)
    | .error _ => false

/-- The entries of a file that was opened.  In the code they are made when they are first looked up;
nothing is cached, and no ids are known to be free (cfb.py:1097-1105). -/
def treeOf (c : Cfb) : St where
  heap := heapOf c
  child := childOf c
  typ := typOf c
  parent := parentOf c
  cache := Lru.init 512
  free := []
  sectors := c.sys.fs.dirChain.length
  per := c.sys.fs.ss / 128
  broken := false

/-- `close` and opening the file again with `'rb+'` (cfb.py:1144-1183, 1078-1130). -/
def reopen (v : Vol) : Res Vol := do
  let g ← Fat.close v.file
  let c ← Fat.openCfb g
  .ok ⟨treeOf c, c⟩

/-- A new file (cfb.py:1132-1142, 1185-1239) over whatever the file object contains. -/
def newVol (ss : Nat) (f : Bytes) : Res Vol := do
  let c ← Fat.newCfb ss f
  .ok ⟨Tree.new (ss / 128), c⟩

/-- Calls. (Made of `Mode` cfb.py:2142-2165, `reopen` cfb.py:1144-1183, 1078-1130.) -/
inductive VOp where
  | path (o : Tree.Op)
  | open (p : Name) (m : Mode)
  | io (op : Fat.Op)
  | stamp (e : Nat) (b : Bytes)
  | flush
  | reopen

/-- Results. (Used in `vstep`: cfb.py:1833-2140.) -/
inductive VOut where
  | path (r : Res Tree.Out)
  | io (o : Option Fat.Out)

/-- One call. (Made of `Vol` cfb.py:1833-2140, `setStamp` cfb.py:2151-2164, `openPath` cfb.py:2142-2165, `reopen` cfb.py:1144-1183, 1078-1130.) -/
def vstep (up : Name → Name) (v : Vol) : VOp → Res (VOut × Vol)
  | .path o => do
    let (r, v) ← pathCall up v o
    .ok (.path r, v)
  | .open p m => do
    let (r, v) ← openPath up v p m
    .ok (.path r, v)
  | .io op => do
    let (o, c) ← Fat.cstep v.file (.io op)
    .ok (.io o, ⟨v.tree, c⟩)
  | .stamp e b =>
    if e ∈ v.file.live ∧ b.length = 36 then do
      let v ← setStamp v e b
      .ok (.io none, v)
    else .ok (.io none, v)
  | .flush => do
    let (_, c) ← Fat.cstep v.file .flush
    .ok (.io none, ⟨v.tree, c⟩)
  | .reopen => do
    let v ← reopen v
    .ok (.io none, v)

/-- A history. (Made of `Vol` cfb.py:1833-2140, `VOp` cfb.py:2142-2165.) -/
def vrun (up : Name → Name) (v : Vol) : List VOp → Res (List VOut × Vol)
  | [] => .ok ([], v)
  | o :: r => do
    let (x, v) ← vstep up v o
    let (xs, v) ← vrun up v r
    .ok (x :: xs, v)

end Verif.Volume
