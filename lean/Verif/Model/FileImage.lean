import Verif.Model.System
import Verif.Model.DirEntry
/-!
# The file as bytes (`/repo/src/aaf2/cfb.py:1067-1183, 1241-1562`)

Header, DIFAT, FAT, mini FAT and directory as they are written by `close` and read by the
constructor.  A struct error in the middle of a sequence of writes leaves the first ones in the
file; here the whole call is the error.
-/
namespace Verif.Fat
open Verif.Chain

/-- cfb.py:1245, 1281. -/
def MAGIC : Bytes := [0xd0, 0xcf, 0x11, 0xe0, 0xa1, 0xb1, 0x1a, 0xe1]

/-- The attributes stored in the header (cfb.py:1187-1216, 1285-1348). -/
structure Hdr where
  classId : Bytes
  minor : Nat
  major : Nat
  ss : Nat
  miniSize : Nat
  dirCount : Nat
  fatCount : Nat
  dirStart : Nat
  trans : Nat
  minMax : Nat
  minifatStart : Nat
  minifatCount : Nat
  difatStart : Nat
  difatCount : Nat
  difat0 : List Nat
  deriving DecidableEq

/-- Consecutive `write_u32le` (utils.py:42-43). -/
def packAll (n : Nat) : List Nat → Res Bytes
  | [] => .ok []
  | v :: r => do
    let a ← packLe n v
    let b ← packAll n r
    .ok (a ++ b)

/-- `table[i]` for `i in range(n)`. (Used in `headerBytes`: cfb.py:1241-1270.) -/
def firstN (n : Nat) (t : List Nat) : Res (List Nat) :=
  if n ≤ t.length then .ok (t.take n) else .error .indexError

/-- What `write_header` writes (cfb.py:1241-1270).  `int(math.log(n, 2))` is `Nat.log2`; the
floating point computation is exact for the sizes that occur (64, 512, 4096). -/
def headerBytes (h : Hdr) : Res Bytes := do
  let a ← packAll 2 [h.minor, h.major, 0xFFFE, h.ss.log2, h.miniSize.log2]
  let b ← packAll 4 [h.dirCount, h.fatCount, h.dirStart, h.trans, h.minMax, h.minifatStart,
    h.minifatCount, h.difatStart, h.difatCount]
  let t ← firstN 109 h.difat0
  let c ← packAll 4 t
  let d := MAGIC ++ h.classId ++ a ++ List.replicate 6 0 ++ b ++ c
  .ok (d ++ List.replicate (h.ss - d.length) 0)

/-- `write_header` (cfb.py:1241-1270). -/
def writeHeader (f : Bytes) (h : Hdr) : Res Bytes := do
  let d ← headerBytes h
  .ok (pwrite f 0 d)

/-- `f.seek(pos); f.read(n)`. (Used in `readU`: utils.py:19-21, 30-32.) -/
def pread (f : Bytes) (pos n : Nat) : Bytes := (f.drop pos).take n

/-- `read_u16le`, `read_u32le` (utils.py:19-21, 30-32): `struct.error` if the file is too short. -/
def readU (f : Bytes) (pos n : Nat) : Res Nat :=
  let d := pread f pos n
  if d.length = n then .ok (unLe d) else .error .structError

/-- Consecutive `read_u32le`. (Used in `readFields`: cfb.py:1273-1348.) -/
def readTable (f : Bytes) (pos : Nat) : Nat → Res (List Nat)
  | 0 => .ok []
  | n + 1 => do
    let v ← readU f pos 4
    let r ← readTable f (pos + 4) n
    .ok (v :: r)

/-- `AUID(bytes_le=..)` and `str` of it (cfb.py:1284-1285; auid.py:11-37): nothing given is a
`TypeError`, fewer than 16 bytes an `IndexError`. -/
def readClass (d : Bytes) : Res Bytes :=
  if d.length = 0 then .error .typeError
  else if d.length < 16 then .error .indexError else .ok d

/-- `isinstance(fat_sector_types.get(sid, sid), int)` (cfb.py:58-61). -/
def isReg (sid : Nat) : Bool :=
  decide (sid ≠ DIFSECT ∧ sid ≠ FATSECT ∧ sid ≠ ENDOFCHAIN ∧ sid ≠ FREESECT)

/-- `read_header` up to the DIFAT sectors (cfb.py:1273-1348).  Positions are those `f.tell()` has. -/
def readFields (f : Bytes) : Res Hdr :=
  if pread f 0 8 ≠ MAGIC then .error .cfbError else do
  let classId ← readClass (pread f 8 16)
  let minor ← readU f 24 2
  let major ← readU f 26 2
  let order ← readU f 28 2
  if order ≠ 0xFFFE then .error .notImplemented else do
  let sizeLog ← readU f 30 2
  let miniLog ← readU f 32 2
  if ¬ (2 ^ sizeLog = 4096 ∨ 2 ^ sizeLog = 512) then .error .notImplemented
  else if 2 ^ miniLog ≠ 64 then .error .notImplemented else do
  let dirCount ← readU f 40 4
  let fatCount ← readU f 44 4
  let dirStart ← readU f 48 4
  let trans ← readU f 52 4
  let minMax ← readU f 56 4
  let minifatStart ← readU f 60 4
  let minifatCount ← readU f 64 4
  let difatStart ← readU f 68 4
  let difatCount ← readU f 72 4
  let difat0 ← readTable f 76 109
  .ok {
    classId := classId, minor := minor, major := major, ss := 2 ^ sizeLog, miniSize := 2 ^ miniLog
    dirCount := dirCount, fatCount := fatCount, dirStart := dirStart, trans := trans
    minMax := minMax, minifatStart := minifatStart, minifatCount := minifatCount
    difatStart := difatStart, difatCount := difatCount, difat0 := difat0 }

/-- The loop over the DIFAT sectors (cfb.py:1350-1371). -/
def readDifat (f : Bytes) (ss : Nat) : Nat → Nat → Res (List (List Nat))
  | 0, _ => .ok []
  | left + 1, sid =>
    if isReg sid = false then .ok [] else do
      let t ← readTable f ((sid + 1) * ss) (ss / 4)
      match t.getLast? with
      | none => .error .indexError
      | some next => do
        let r ← readDifat f ss left next
        .ok (t :: r)

/-- `read_header` (cfb.py:1273-1371). -/
def readHeader (f : Bytes) : Res (Hdr × List (List Nat)) := do
  let h ← readFields f
  let r ← readDifat f h.ss h.difatCount h.difatStart
  .ok (h, h.difat0 :: r)

/-- The sectors of the FAT (`iter_difat` and the test, cfb.py:1373-1381, 1420-1426, 1462-1466). -/
def fatSects (difat : List (List Nat)) : List Nat :=
  ((difat.headD []) ++ difat.tail.flatMap List.dropLast).filter isReg

/-- Little-endian 32-bit words. (Used in `sidTable`: cfb.py:1067-1075.) -/
def words : Bytes → List Nat
  | a :: b :: c :: d :: r => unLe [a, b, c, d] :: words r
  | _ => []

/-- `extend_sid_table` on a buffered file (cfb.py:1067-1075): `array.frombytes` raises when the
number of bytes is not a multiple of 4. -/
def sidTable (f : Bytes) (ss sid : Nat) : Res (List Nat) :=
  let d := pread f ((sid + 1) * ss) ss
  if d.length % 4 = 0 then .ok (words d) else .error .valueError

/-- `sidTable` for several sectors (cfb.py:1434-1438, 1486-1490). -/
def sidTables (f : Bytes) (ss : Nat) : List Nat → Res (List Nat)
  | [] => .ok []
  | sid :: r => do
    let a ← sidTable f ss sid
    let b ← sidTables f ss r
    .ok (a ++ b)

/-- The free list made when a table is read (cfb.py:1443-1445, 1495-1500). -/
def freeIdx (t : List Nat) : List Nat :=
  (List.range t.length).filter fun i => t[i]? == some FREESECT

/-- Header values that no operation changes. (Used in `openFs`: cfb.py:1107-1130.) -/
structure Info where
  classId : Bytes
  minor : Nat
  major : Nat
  dirStart : Nat
  trans : Nat
  deriving DecidableEq

/-- The attributes `write_header` reads, of a file with the given state. (Made of `Hdr` cfb.py:1187-1216, 1285-1348, `Info` cfb.py:1107-1130.) -/
def hdrOf (s : Fs) (i : Info) : Hdr where
  classId := i.classId
  minor := i.minor
  major := i.major
  ss := s.ss
  miniSize := 64
  dirCount := s.dirCount
  fatCount := s.fatCount
  dirStart := i.dirStart
  trans := i.trans
  minMax := MINMAX
  minifatStart := s.minifatStart
  minifatCount := s.minifatCount
  difatStart := s.difatStart
  difatCount := s.difatCount
  difat0 := s.difat.headD []

/-- The loop of `write_difat` (cfb.py:1400-1413). -/
def writeDifatTabs (ss : Nat) (f : Bytes) (sid : Nat) : List (List Nat) → Res Bytes
  | [] => .ok f
  | t :: r =>
    if isReg sid = false then .error .ioError else do
      let t' ← firstN (ss / 4) t
      let d ← packAll 4 t'
      match t.getLast? with
      | none => .error .indexError
      | some next => writeDifatTabs ss (pwrite f ((sid + 1) * ss) d) next r

/-- `write_difat` (cfb.py:1384-1413). -/
def writeDifat (s : Fs) : Res Fs := do
  let t ← firstN 109 (s.difat.headD [])
  let d ← packAll 4 t
  let f := pwrite s.f 76 (d ++ List.replicate (s.ss - (76 + d.length)) 0)
  if s.difatCount = 0 then .ok { s with f := f }
  else if s.difat.tail.length ≠ s.difatCount then .error .assertion
  else do
    let f ← writeDifatTabs s.ss f s.difatStart s.difat.tail
    .ok { s with f := f }

/-- The loops of `write_fat` and `write_minifat` (cfb.py:1471-1479, 1511-1519):
`Struct('<%dI').pack` raises unless it gets exactly its number of values. -/
def writeTabs (ss : Nat) (f : Bytes) (tbl : List Nat) (i : Nat) : List Nat → Res Bytes
  | [] => .ok f
  | sid :: r => do
    let part := (tbl.drop (i * (ss / 4))).take (ss / 4)
    if part.length ≠ ss / 4 then .error .structError else do
      let d ← packAll 4 part
      writeTabs ss (pwrite f ((sid + 1) * ss) d) tbl (i + 1) r

/-- `write_fat` (cfb.py:1453-1479). -/
def writeFat (s : Fs) : Res Fs :=
  if s.fat.length * 4 % s.ss ≠ 0 then .error .assertion
  else if (fatSects s.difat).length ≠ s.fat.length * 4 / s.ss then .error .assertion
  else do
    let f ← writeTabs s.ss s.f s.fat 0 (fatSects s.difat)
    .ok { s with f := f }

/-- `write_minifat` (cfb.py:1507-1519). -/
def writeMinifat (s : Fs) : Res Fs := do
  let ch ← getFatChain s.fat (some s.minifatStart)
  let f ← writeTabs s.ss s.f s.minifat 0 ch
  .ok { s with f := f }

/-- `for i, v in enumerate(reversed(table)): if v != FREESECT: break`, then `len(table) - i`
(cfb.py:1155-1159, 1174-1178): one more than the last index in use; 1 if all entries are free, and
`i` is unbound for an empty table. -/
def lastUsed (t : List Nat) : Res Nat :=
  if t = [] then .error .unboundLocal
  else match t.reverse.findIdx? (· != FREESECT) with
    | some i => .ok (t.length - i)
    | none => .ok 1

/-- `Stream(self, self.root, 'rw').truncate(size)` for a size that is `byte_size` already
(cfb.py:1164-1165, 310-367), the entry being the root storage. -/
def truncRoot (s : Fs) (size : Nat) : Res Fs := do
  let chain ← getFatChain s.fat s.rootStart
  let count := sectors size s.ss
  if chain.length > count then do
    let last ← idx chain (count - 1)
    let first ← idx chain count
    let s ← freeFatChain s (some first) false
    let t ← setAt s.fat last ENDOFCHAIN
    .ok { s with fat := t }
  else .ok s

/-- `f.seek(pos); f.truncate()`: the file gets the length `pos`. (Used in `truncFile`: cfb.py:1173-1181.) -/
def setLen (f : Bytes) (pos : Nat) : Bytes := f.take pos ++ List.replicate (pos - f.length) 0

/-- The end of `close` (cfb.py:1173-1181). -/
def truncFile (s : Fs) : Res Bytes := do
  let n ← lastUsed s.fat
  .ok (setLen s.f ((n + 1) * s.ss))

/-- What the constructor makes of a file in mode `'rb'` or `'rb+'` (cfb.py:1107-1130), without the
directory entries. -/
def openFs (f : Bytes) : Res (Fs × Info × Bytes) := do
  let (h, difat) ← readHeader f
  let sects := fatSects difat
  let fat ← sidTables f h.ss sects
  let minifatChain ← getFatChain fat (some h.minifatStart)
  let minifat ← sidTables f h.ss minifatChain
  let dirChain ← getFatChain fat (some h.dirStart)
  let s : Fs := {
    f := f, ss := h.ss, difat := difat, difatStart := h.difatStart, difatCount := h.difatCount
    fatCount := sects.length, fat := fat, free := freeIdx fat, minifat := minifat
    mfree := freeIdx minifat, minifatStart := h.minifatStart, minifatCount := h.minifatCount
    minifatChain := minifatChain, dirChain := dirChain, dirCount := dirChain.length
    miniChain := [], rootStart := none, cache := Lru.init 512, ent := fun _ => ⟨none, 0⟩ }
  let sid ← idx dirChain 0
  let (d, s) := readSector s sid
  let root := d.take 128
  let start := DirEntry.getSector root
  let mini ← if h.minifatCount = 0 then .ok [] else getFatChain fat start
  .ok ({ s with miniChain := mini, rootStart := start }, ⟨h.classId, h.minor, h.major, h.dirStart, h.trans⟩, root)

end Verif.Fat
