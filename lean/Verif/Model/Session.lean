import Verif.Model.FileImage
/-!
# Sessions: directory records, `close` and reading the file again

The file object with its directory records.  The order of names, the links between entries and the
paths are not looked at here (see `RbDir`, `DirList`): a record is 128 bytes of which only the type,
the first sector and the size matter.
-/
namespace Verif.Fat
open Verif.Chain

/-- A file object (`CompoundFileBinary`) in a writable mode.

`rec id` is the `data` of the entry `id`, whether its `DirEntry` is in memory or not: the objects
in `dir_cache` are kept alive by `modified` as long as they differ from the file (cfb.py:1097,
661-670), others are read again (cfb.py:1712-1734).  `live` are the ids handed out by
`next_free_dir_id` and not freed, and 0; it exists in the model only. -/
structure Cfb where
  sys : Sys
  info : Info
  recs : Nat → Bytes
  modified : List Nat
  dirFree : List Nat
  live : List Nat

/-- `entry.type == 'stream'` (cfb.py:516-518). -/
def isStream (d : Bytes) : Bool := d.getD 66 0 == 2

/-- Replace one record. (Used in `syncEnt`: cfb.py:646-659.) -/
def setRec (rec : Nat → Bytes) (id : Nat) (d : Bytes) : Nat → Bytes :=
  fun j => if j = id then d else rec j

/-- `modified[dir_id] = self` (cfb.py:668).  The flush when there are more than 128 of them
(cfb.py:669-670) is an operation of its own below. -/
def mark (m : List Nat) (id : Nat) : List Nat := if id ∈ m then m else m ++ [id]

/-- Assigning `sector_id` and `byte_size` (cfb.py:646-659) and `mark_modified` (cfb.py:661-670). -/
def syncEnt (c : Cfb) (id : Nat) : Res Cfb := do
  let e := c.sys.fs.ent id
  let d ← DirEntry.setSector (c.recs id) e.start
  let d ← DirEntry.setSize d e.size
  .ok { c with recs := setRec c.recs id d, modified := mark c.modified id }

/-- `root.sector_id = ..` in `mini_stream_grow` (cfb.py:1791-1792). -/
def syncRoot (c : Cfb) : Res Cfb := do
  let d ← DirEntry.setSector (c.recs 0) c.sys.fs.rootStart
  .ok { c with recs := setRec c.recs 0 d, modified := mark c.modified 0 }

/-- The record of the stream, if the call has changed the entry. (Made of `Cfb` cfb.py:1097, 661-670, `syncEnt` cfb.py:646-659.) -/
def syncTarget (c : Cfb) (y : Sys) : Option Nat → Res Cfb
  | none => .ok { c with sys := y }
  | some id =>
    if y.fs.ent id = c.sys.fs.ent id then .ok { c with sys := y } else syncEnt { c with sys := y } id

/-- The records of the stream and of the root entry, after a call that has led to `y`. (Made of `Cfb` cfb.py:1097, 661-670, `syncRoot` cfb.py:1791-1792, `COp.ok` cfb.py:646-659.) -/
def syncAll (c : Cfb) (y : Sys) (t : Option Nat) : Res Cfb := do
  let c' ← syncTarget c y t
  if y.fs.rootStart = c.sys.fs.rootStart then .ok c' else syncRoot c'

/-- Operations of a session. (Used in `COp.ok`: cfb.py:646-659.) -/
inductive COp where
  /-- a call on a stream, or reading a sector (`Op`, without `growDir` and `flush`) -/
  | io (op : Op)
  /-- any change of the first 116 bytes of a record: name, colour, links, class id and times
  (cfb.py:501-639), each followed by `mark_modified` -/
  | edit (id : Nat) (d : Bytes)
  /-- `next_free_dir_id` and a new `DirEntry` that is a storage or a stream (cfb.py:1741-1758,
  1851-1854) -/
  | new (typ : UInt8)
  /-- the end of `remove`, and each round of `rmtree` (cfb.py:1894-1904, 1910-1921): the data of a
  stream are freed, the entry goes to the free list (cfb.py:1862-1877) -/
  | free (id : Nat)
  /-- `write_modified_dir_entries` (cfb.py:1521-1542) -/
  | flush

/-- An operation of a stream is possible if the entry exists and is a stream. (Used in `syncEnt`: cfb.py:646-659.) -/
def COp.ok (c : Cfb) : COp → Bool
  | .io op => match op with
    | .growDir => false
    | .flush _ => false
    | .sector _ => true
    | op => match op.target with
      | some id => decide (id ∈ c.live) && isStream (c.recs id)
      | none => false
  | .edit id d => decide (id ∈ c.live ∧ d.length = 116 ∧ d.getD 66 0 = (c.recs id).getD 66 0)
  | .new typ => typ == 1 || typ == 2
  | .free id => decide (id ∈ c.live) && decide (id ≠ 0)
  | .flush => true

/-- `next_free_dir_id` (cfb.py:1741-1758). -/
def nextDirId (c : Cfb) : Res (Nat × Cfb) :=
  match c.dirFree with
  | i :: r => .ok (i, { c with dirFree := r })
  | [] => do
    let s ← growDir c.sys.fs
    let first := (s.dirChain.length - 1) * s.ss / 128
    match List.range' first (s.ss / 128) with
    | i :: r => .ok (i, { c with sys := ⟨s, c.sys.hs⟩, dirFree := r })
    | [] => .error .noFuel

/-- The record of a new entry (cfb.py:472-488 and the type, cfb.py:1853). -/
def freshRec (typ : UInt8) : Res Bytes := do
  let e ← DirEntry.fresh
  .ok (e.data.set 66 typ)

/-- One step of `sortIds` (cfb.py:1524, 1551). -/
def insertId (x : Nat) : List Nat → List Nat
  | [] => [x]
  | y :: r => if x ≤ y then x :: y :: r else y :: insertId x r

/-- `sorted` and `list.sort` on numbers (cfb.py:1524, 1551), as insertion sort. -/
def sortIds : List Nat → List Nat
  | [] => []
  | x :: r => insertId x (sortIds r)

/-- `modified` in the order it is written (cfb.py:1524). -/
def modData (c : Cfb) : List (Nat × Bytes) :=
  (sortIds c.modified).map fun id => (id, c.recs id)

/-- One operation.  An operation that is not possible (`COp.ok`) does nothing. (Made of `Cfb` cfb.py:1097, 661-670, `isStream` cfb.py:516-518, `setRec` cfb.py:646-659, `mark` cfb.py:668 and others.) -/
def cstep (c : Cfb) (o : COp) : Res (Option Out × Cfb) :=
  if o.ok c = false then .ok (none, c) else
  match o with
  | .io op => do
    let (out, y) ← step c.sys op
    let c' ← syncAll c y op.target
    .ok (some out, c')
  | .edit id d => .ok (none, { c with
      recs := setRec c.recs id (d ++ (c.recs id).drop 116), modified := mark c.modified id })
  | .new typ => do
    let (id, c) ← nextDirId c
    let d ← freshRec typ
    .ok (some (.num id), { c with
      recs := setRec c.recs id d, modified := mark c.modified id, live := id :: c.live
      sys := ⟨c.sys.fs, setH c.sys.hs ⟨id, 0, []⟩ id⟩ })
  | .free id => do
    let s ← if isStream (c.recs id) then dropStream c.sys.fs id else .ok c.sys.fs
    .ok (none, { c with
      sys := ⟨s, setH c.sys.hs ⟨id, 0, []⟩ id⟩, dirFree := c.dirFree ++ [id]
      modified := c.modified.filter (· ≠ id), live := c.live.filter (· ≠ id) })
  | .flush => do
    let s ← writeDirs c.sys.fs (modData c)
    .ok (none, { c with sys := ⟨s, c.sys.hs⟩, modified := [] })

/-- A history. (Made of `Cfb` cfb.py:1097, 661-670, `COp.ok` cfb.py:646-659.) -/
def crun (c : Cfb) : List COp → Res (List (Option Out) × Cfb)
  | [] => .ok ([], c)
  | op :: r => do
    let (o, c) ← cstep c op
    let (os, c) ← crun c r
    .ok (o :: os, c)

/-- `write_dir_entries` (cfb.py:1544-1562). -/
def writeDirEntries (c : Cfb) : Res Cfb := do
  let s ← writeDirs c.sys.fs (modData c)
  let s ← clearDirs s (sortIds c.dirFree)
  .ok { c with sys := ⟨s, c.sys.hs⟩, modified := [] }

/-- The size of the mini stream and its truncation (cfb.py:1149-1165). -/
def closeMini (c : Cfb) : Res Cfb :=
  match c.sys.fs.rootStart with
  | none => .ok c
  | some _ => do
    let n ← lastUsed c.sys.fs.minifat
    let d ← DirEntry.setSize (c.recs 0) (n * 64)
    let s ← truncRoot c.sys.fs (n * 64)
    .ok { c with recs := setRec c.recs 0 d, modified := mark c.modified 0, sys := ⟨s, c.sys.hs⟩ }

/-- `close` in a writable mode (cfb.py:1144-1183): the bytes of the file. -/
def close (c : Cfb) : Res Bytes := do
  let c ← closeMini c
  let f ← writeHeader c.sys.fs.f (hdrOf c.sys.fs c.info)
  let s := { c.sys.fs with f := f }
  let s ← writeDifat s
  let s ← writeFat s
  let s ← writeMinifat s
  let c ← writeDirEntries { c with sys := ⟨s, c.sys.hs⟩ }
  truncFile c.sys.fs

/-- The record of an entry in the file (`read_dir_entry`, cfb.py:1712-1734, without the caches). -/
def diskRec (s : Fs) (id : Nat) : Bytes :=
  let sid := s.dirChain.getD (id * 128 / s.ss) 0
  preadPad s.f ((sid + 1) * s.ss + id * 128 % s.ss) 128

/-- `sector_id` and `byte_size` of a record if it is a stream. (Made of `isStream` cfb.py:516-518.) -/
def entOf (d : Bytes) : Ent :=
  if isStream d then ⟨DirEntry.getSector d, DirEntry.getSize d⟩ else ⟨none, 0⟩

/-- The record of an entry when the file is opened: the root entry was read with the header. (Used in `openCfb`: cfb.py:1078-1130.) -/
def openRec (s : Fs) (root : Bytes) (id : Nat) : Bytes := if id = 0 then root else diskRec s id

/-- First sector and size of the entries of the file. (Used in `openCfb`: cfb.py:1078-1130.) -/
def openEnt (s : Fs) (root : Bytes) (id : Nat) : Ent :=
  if id < s.dirChain.length * s.ss / 128 ∧ id ≠ 0 then entOf (openRec s root id) else ⟨none, 0⟩

/-- A `Stream` object for each entry (cfb.py:2142-2165). -/
def openHs (s : Fs) (id : Nat) : Handle :=
  match openStream s id with
  | .ok h => h
  | .error _ => ⟨id, 0, []⟩

/-- Opening a file in mode `'rb+'` (cfb.py:1078-1130).  The entries are read when they are looked
up; as `recs` describes the entries in memory and in the file alike, it is filled here.
`dir_freelist` stays empty (cfb.py:1104).  Each stream gets a `Stream` object. -/
def openCfb (f : Bytes) : Res Cfb := do
  let (s, info, root) ← openFs f
  let s' := { s with ent := openEnt s root }
  .ok {
    sys := ⟨s', openHs s'⟩
    info := info, recs := openRec s root, modified := [], dirFree := []
    live := (List.range (s.dirChain.length * s.ss / 128)).filter fun id =>
      (openRec s root id).getD 66 0 ≠ 0 }

/-- The root entry of a new file (cfb.py:1229-1233): name, type, class id. -/
def rootRec : Res Bytes := do
  let e ← DirEntry.fresh
  let e ← DirEntry.setName e [82, 111, 111, 116, 32, 69, 110, 116, 114, 121]
  let d ← DirEntry.setSector e.data none
  .ok (DirEntry.setClass (d.set 66 5) (some [0xa5, 0x98, 0xb3, 0xb3, 0x90, 0x1c, 0xd4, 0x11,
    0x80, 0x53, 0x08, 0x00, 0x36, 0x21, 0x08, 0x04]))

/-- The header values of a new file (cfb.py:1187-1207); the class ids as `bytes_le`. -/
def newInfo (ss : Nat) : Info where
  classId := if ss = 4096 then
      [0x01, 0x02, 0x01, 0x0d, 0x00, 0x02, 0x00, 0x00, 0x06, 0x0e, 0x2b, 0x34, 0x03, 0x02, 0x01, 0x01]
    else
      [0x41, 0x41, 0x46, 0x42, 0x0d, 0x00, 0x4f, 0x4d, 0x06, 0x0e, 0x2b, 0x34, 0x01, 0x01, 0x01, 0xff]
  minor := 62
  major := 4
  dirStart := 0
  trans := 1

/-- The constructor in a mode that makes a new file (cfb.py:1132-1142), over whatever the file
object contains. -/
def newCfb (ss : Nat) (f : Bytes) : Res Cfb :=
  if ss ≠ 4096 ∧ ss ≠ 512 then .error .valueError else do
  let root ← rootRec
  let s := setupEmpty ss f
  let f ← writeHeader f (hdrOf s (newInfo ss))
  let f := pwrite f ss root
  let f := pwrite f (ss + 128) (List.replicate (ss - 128) 0)
  let s ← writeFat { s with f := f }
  .ok {
    sys := ⟨s, fun id => ⟨id, 0, []⟩⟩, info := newInfo ss
    recs := fun id => if id = 0 then root else List.replicate 128 0
    modified := [0], dirFree := [], live := [0] }

/-- What happens to a file: an operation, or `close` and opening the file again with `'rb+'`. (Used in `sstep`: cfb.py:1097, 661-670.) -/
inductive Ev where
  | op (o : COp)
  | reopen

/-- One event. (Made of `Cfb` cfb.py:1097, 661-670, `COp.ok` cfb.py:646-659, `close` cfb.py:1144-1183, `openCfb` cfb.py:1078-1130.) -/
def sstep (c : Cfb) : Ev → Res (Option Out × Cfb)
  | .op o => cstep c o
  | .reopen => do
    let g ← close c
    let c ← openCfb g
    .ok (none, c)

/-- Any number of sessions. (Made of `Cfb` cfb.py:1097, 661-670, `COp.ok` cfb.py:646-659.) -/
def srun (c : Cfb) : List Ev → Res (List (Option Out) × Cfb)
  | [] => .ok ([], c)
  | e :: r => do
    let (o, c) ← sstep c e
    let (os, c) ← srun c r
    .ok (o :: os, c)

end Verif.Fat
