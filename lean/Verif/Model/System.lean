import Verif.Model.Stream
/-!
# Histories of stream operations

A file object together with one open `Stream` object per directory entry.  The operations are the
methods of `Stream` and the operations of the file object that move sectors or write them.
-/
namespace Verif.Fat

/-- One call. (Used in `step`: cfb.py:105-106.) -/
inductive Op where
  /-- `stream.read(n)` (cfb.py:137-205) -/
  | read (id : Nat) (n : Int)
  /-- `stream.write(data)` (cfb.py:243-308) -/
  | write (id : Nat) (data : Bytes)
  /-- `stream.seek(offset, whence)` (cfb.py:98-118) -/
  | seek (id : Nat) (offset : Int) (whence : Nat)
  /-- `stream.tell()` (cfb.py:95-96) -/
  | tell (id : Nat)
  /-- `stream.truncate(size)` (cfb.py:310-369) -/
  | truncate (id : Nat) (size : Nat)
  /-- `stream.truncate()` (cfb.py:310-313) -/
  | truncateHere (id : Nat)
  /-- `open(path, 'r')` or `'rw'` on an existing stream (cfb.py:2142-2165) -/
  | reopen (id : Nat)
  /-- `open(path, 'w')`, or `remove` and a new stream under the same id -/
  | create (id : Nat)
  /-- a new directory sector (cfb.py:1749-1752) -/
  | growDir
  /-- `write_modified_dir_entries` (cfb.py:1521-1542).  In the code this also happens inside other
  operations, when more than 128 entries are modified (cfb.py:654-663); as it only writes sectors
  of the directory, it is modelled as an operation of its own. -/
  | flush (l : List (Nat × Bytes))
  /-- a sector read by `read_dir_entry` (cfb.py:1712-1734) -/
  | sector (sid : Nat)

/-- The stream an operation is called on. (Made of `Op` cfb.py:105-106.) -/
def Op.target : Op → Option Nat
  | .read id _ | .write id _ | .seek id _ _ | .tell id | .truncate id _ | .truncateHere id
  | .reopen id | .create id => some id
  | .growDir | .flush _ | .sector _ => none

/-- What a call returns or raises. (Used in `step`: cfb.py:105-106.) -/
inductive Out where
  | bytes (b : Bytes)
  | num (n : Nat)
  | none
  | valueError
  deriving DecidableEq

/-- The file and one open stream per entry. (Used in `step`: cfb.py:105-106.) -/
structure Sys where
  fs : Fs
  hs : Nat → Handle

/-- Replace a handle. (Used in `step`: cfb.py:105-106.) -/
def setH (hs : Nat → Handle) (h : Handle) (id : Nat) : Nat → Handle :=
  fun j => if j = id then h else hs j

/-- An entry that is in the directory and has 128 bytes (cfb.py:474, 1741-1758): others cannot be
in `modified`. -/
def inDir (s : Fs) (p : Nat × Bytes) : Bool :=
  decide (p.1 * 128 < s.dirChain.length * s.ss ∧ p.2.length = 128)

/-- One operation.  `seek` to a negative position raises before anything is changed
(cfb.py:105-106); any other exception ends the history. -/
def step (y : Sys) : Op → Res (Out × Sys)
  | .read id n => do
    let (d, s, h) ← read y.fs (y.hs id) n
    .ok (.bytes d, ⟨s, setH y.hs h id⟩)
  | .write id data => do
    let (s, h) ← write y.fs (y.hs id) data
    .ok (.none, ⟨s, setH y.hs h id⟩)
  | .seek id offset whence =>
    match seek y.fs (y.hs id) offset whence with
    | .ok (o, s, h) => .ok (.num o, ⟨s, setH y.hs h id⟩)
    | .error .valueError => .ok (.valueError, y)
    | .error e => .error e
  | .tell id => .ok (.num (y.hs id).pos, y)
  | .truncate id size => do
    let (s, h) ← truncate y.fs (y.hs id) size
    .ok (.none, ⟨s, setH y.hs h id⟩)
  | .truncateHere id => do
    let (s, h) ← truncate y.fs (y.hs id) (y.hs id).pos
    .ok (.none, ⟨s, setH y.hs h id⟩)
  | .reopen id => do
    let h ← openStream y.fs id
    .ok (.none, ⟨y.fs, setH y.hs h id⟩)
  | .create id => do
    let s ← dropStream y.fs id
    let h ← openStream s id
    .ok (.none, ⟨s, setH y.hs h id⟩)
  | .growDir => do
    let s ← growDir y.fs
    .ok (.none, ⟨s, y.hs⟩)
  | .flush l => do
    let s ← writeDirs y.fs (l.filter (inDir y.fs))
    .ok (.none, ⟨s, y.hs⟩)
  | .sector sid =>
    let (d, s) := readSector y.fs sid
    .ok (.bytes d, ⟨s, y.hs⟩)

/-- A history. (Made of `Op` cfb.py:105-106.) -/
def run (y : Sys) : List Op → Res (List Out × Sys)
  | [] => .ok ([], y)
  | op :: r => do
    let (o, y) ← step y op
    let (os, y) ← run y r
    .ok (o :: os, y)

/-- A new file (cfb.py:1185-1237) over any file content `f`, with a stream object for each entry
to come. -/
def newSys (ss : Nat) (f : Bytes) : Sys := ⟨setupEmpty ss f, fun id => ⟨id, 0, []⟩⟩

end Verif.Fat
