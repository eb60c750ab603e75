import Verif.Model.Chain
import Verif.Model.Lru
/-!
# Sector allocation (`/repo/src/aaf2/cfb.py`)

State of a `CompoundFileBinary` object below the directory level: the tables, the free lists, the
chains kept in memory, the file and the sector cache.  Sector numbers are natural numbers; a
file that outgrows the 32-bit sector numbers is outside the model (error `outOfRange`).
-/
namespace Verif.Fat
open Verif.Chain

/-- cfb.py:52. -/
def RANGELOCKSECT : Nat := 0x7FFFFF00 / 4096 - 1

/-- cfb.py:54. -/
def MAXREGSECT : Nat := 0xFFFFFFFA

/-- `sector_id` and `byte_size` of a directory entry (cfb.py:641-659); the other fields do not
matter for allocation.  An id without a stream has no sector and size 0. -/
structure Ent where
  start : Option Nat
  size : Nat
  deriving DecidableEq, Repr

/-- The fields of `CompoundFileBinary` set in cfb.py:1078-1105 and 1185-1237. -/
structure Fs where
  f : Bytes
  ss : Nat
  difat : List (List Nat)
  difatStart : Nat
  difatCount : Nat
  fatCount : Nat
  fat : List Nat
  free : List Nat
  minifat : List Nat
  mfree : List Nat
  minifatStart : Nat
  minifatCount : Nat
  minifatChain : List Nat
  dirChain : List Nat
  dirCount : Nat
  miniChain : List Nat
  rootStart : Option Nat
  cache : Lru.Cache Nat Bytes
  ent : Nat → Ent

/-- `next_free_sect` as long as the free list is not empty (cfb.py:1600-1611): sectors are popped
from the front, the range lock sector is marked and skipped.  `none`: the list ran empty. -/
def popFree (big : Bool) : List Nat → List Nat → Res (Option Nat × List Nat × List Nat)
  | fat, [] => .ok (none, fat, [])
  | fat, i :: rest =>
    match fat[i]? with
    | none => .error .indexError
    | some v =>
      if v ≠ FREESECT then .error .assertion
      else if i = RANGELOCKSECT ∧ big = true then popFree big (fat.set i ENDOFCHAIN) rest
      else .ok (some i, fat, rest)

/-- First free slot in the DIFAT tables after the header (`iter_difat`, cfb.py:1377-1381; the last
entry of each table is the link to the next one). -/
def findTab (t : Nat) : List (List Nat) → Option (Nat × Nat)
  | [] => none
  | tab :: rest =>
    match tab.dropLast.findIdx? (· == FREESECT) with
    | some i => some (t, i)
    | none => findTab (t + 1) rest

/-- First free slot in iteration order (cfb.py:1619-1623, 1643-1647 over `iter_difat`,
cfb.py:1373-1381). -/
def findFree : List (List Nat) → Option (Nat × Nat)
  | [] => none
  | h :: rest =>
    match h.findIdx? (· == FREESECT) with
    | some i => some (0, i)
    | none => findTab 1 rest

/-- `difat[t][i] = v`. (Used in `growFat`: cfb.py:1654-1675.) -/
def set2 (difat : List (List Nat)) (t i v : Nat) : List (List Nat) :=
  difat.modify t fun tab => tab.set i v

/-- `self.difat[-1][-1] = v` (cfb.py:1633). -/
def setLastLast (difat : List (List Nat)) (v : Nat) : List (List Nat) :=
  difat.modify (difat.length - 1) fun tab => tab.set (tab.length - 1) v

/-- The part of `next_free_sect` that makes room in the DIFAT (cfb.py:1616-1647): the slot to use
and the new DIFAT sector, if any.  `difat[-1] == ENDOFCHAIN` (line 1640) is a comparison without
effect in the source, so the link of the new table stays `FREESECT`. -/
def growDifat (s : Fs) : Res (Fs × Nat × Nat × Option Nat) :=
  match findFree s.difat with
  | some (t, i) => .ok (s, t, i, none)
  | none =>
    let nd := s.fat.length + 1
    let s := if s.difatCount = 0 then { s with difatStart := nd, difatCount := 1 }
      else { s with difat := setLastLast s.difat nd, difatCount := s.difatCount + 1 }
    let s := { s with difat := s.difat ++ [List.replicate (s.ss / 4) FREESECT] }
    match findFree s.difat with
    | some (t, i) => .ok (s, t, i, some nd)
    | none => .error .typeError

/-- The new part of the FAT and its free list (cfb.py:1654-1675). -/
def growFat (s : Fs) (t i : Nat) (nd : Option Nat) : Fs :=
  let nf := s.fat.length
  let s := { s with difat := set2 s.difat t i nf }
  let lo := s.fat.length
  let hi := lo + s.ss / 4
  let fat := s.fat ++ List.replicate (s.ss / 4) FREESECT
  let lock : Bool := decide (RANGELOCKSECT < hi ∧ lo < RANGELOCKSECT ∧ s.ss = 4096)
  let fat := if lock then fat.set RANGELOCKSECT ENDOFCHAIN else fat
  let nonFree := fun x => x = nf ∨ some x = nd ∨ (lock = true ∧ x = RANGELOCKSECT)
  let new := (List.range' lo (hi - lo)).filter fun x => ¬ nonFree x
  let fat := fat.set nf FATSECT
  let fat := match nd with
    | some d => fat.set d DIFSECT
    | none => fat
  { s with fat := fat, free := s.free ++ new, fatCount := s.fatCount + 1 }

/-- cfb.py:1613-1678.  The code does not check the number of sectors against the 32-bit range of
the table; growing beyond `MAXREGSECT` sectors (2 or 16 TiB) is outside the model, written as the
error `outOfRange`. -/
def grow (s : Fs) : Res Fs :=
  if MAXREGSECT < s.fat.length + s.ss / 4 then .error .outOfRange else do
    let (s, t, i, nd) ← growDifat s
    .ok (growFat s t i nd)

/-- `next_free_sect` (cfb.py:1598-1680).  The recursive call after growing finds a free sector at
once (`C18`), so one growth is modelled; a second one would be the error `noFuel`. -/
def nextFreeSect (s : Fs) : Res (Nat × Fs) := do
  let (r, fat, free) ← popFree (s.ss == 4096) s.fat s.free
  let s := { s with fat := fat, free := free }
  match r with
  | some i => .ok (i, s)
  | none =>
    let s ← grow s
    let (r, fat, free) ← popFree (s.ss == 4096) s.fat s.free
    match r with
    | some i => .ok (i, { s with fat := fat, free := free })
    | none => .error .noFuel

/-- `fat[i] = v` on an `array('I')`. (Used in `miniStreamGrow`: cfb.py:1787-1797.) -/
def setAt (fat : List Nat) (i v : Nat) : Res (List Nat) :=
  if i < fat.length then .ok (fat.set i v) else .error .indexError

/-- `mini_stream_grow` (cfb.py:1787-1797). -/
def miniStreamGrow (s : Fs) : Res Fs := do
  let (sid, s) ← nextFreeSect s
  let s ← match s.miniChain.getLast? with
    | none => .ok { s with miniChain := [sid], rootStart := some sid }
    | some l => do
      let fat ← setAt s.fat l sid
      .ok { s with fat := fat, miniChain := s.miniChain ++ [sid] }
  let fat ← setAt s.fat sid ENDOFCHAIN
  .ok { s with fat := fat }

/-- The growth of the mini FAT (cfb.py:1577-1594); `outOfRange` as in `grow`. -/
def growMinifat (s : Fs) : Res Fs := do
  let (sid, s) ← nextFreeSect s
  if MAXREGSECT < s.minifat.length + s.ss / 4 then .error .outOfRange else
  let lo := s.minifat.length
  let s := { s with
    minifat := s.minifat ++ List.replicate (s.ss / 4) FREESECT
    mfree := s.mfree ++ List.range' lo (s.ss / 4) }
  let s ← if s.minifatCount = 0 then .ok { s with minifatCount := 1, minifatStart := sid }
    else do
      match s.minifatChain.getLast? with
      | none => .error .indexError
      | some l =>
        let fat ← setAt s.fat l sid
        .ok { s with minifatCount := s.minifatCount + 1, fat := fat }
  let s := { s with minifatChain := s.minifatChain ++ [sid] }
  let fat ← setAt s.fat sid ENDOFCHAIN
  .ok { s with fat := fat }

/-- The first part of `next_free_minifat_sect` (cfb.py:1566-1574); `none`: the list is empty. -/
def popMini (s : Fs) : Res (Option (Nat × Fs)) :=
  let streamSects := s.miniChain.length * (s.ss / 64)
  match s.mfree with
  | [] => .ok none
  | i :: rest => do
    let s := { s with mfree := rest }
    let v ← at? s.minifat i
    if v ≠ FREESECT then .error .assertion
    else if i + 1 > streamSects then do
      let s ← miniStreamGrow s
      .ok (some (i, s))
    else .ok (some (i, s))

/-- `next_free_minifat_sect` (cfb.py:1564-1596); one growth, as in `nextFreeSect`. -/
def nextFreeMini (s : Fs) : Res (Nat × Fs) := do
  match ← popMini s with
  | some r => .ok r
  | none =>
    let s ← growMinifat s
    match ← popMini s with
    | some r => .ok r
    | none => .error .noFuel

/-- Linking a new sector to the end of the chain starting at `start` (cfb.py:1810-1816). -/
def link (fat : List Nat) (start : Option Nat) (sect : Nat) : Res (List Nat) :=
  match start with
  | none => setAt fat sect ENDOFCHAIN
  | some _ => do
    let ch ← getFatChain fat start
    match ch.getLast? with
    | none => .error .assertion
    | some l => do
      let fat ← setAt fat l sect
      setAt fat sect ENDOFCHAIN

/-- `fat_chain_append` (cfb.py:1799-1818). -/
def fatChainAppend (s : Fs) (start : Option Nat) (mini : Bool) : Res (Nat × Fs) :=
  if mini then do
    let (sect, s) ← nextFreeMini s
    let t ← link s.minifat start sect
    .ok (sect, { s with minifat := t })
  else do
    let (sect, s) ← nextFreeSect s
    let t ← link s.fat start sect
    .ok (sect, { s with fat := t })

/-- The loop of `free_fat_chain` (cfb.py:1825-1830). -/
def freeLoop : List Nat → List Nat → List Nat → List Nat × List Nat
  | fat, free, [] => (fat, free)
  | fat, free, sid :: r => freeLoop (fat.set sid FREESECT) (sid :: free) r

/-- `free_fat_chain` (cfb.py:1820-1830). -/
def freeFatChain (s : Fs) (start : Option Nat) (mini : Bool) : Res Fs :=
  if mini then do
    let ch ← getFatChain s.minifat start
    let (t, fr) := freeLoop s.minifat s.mfree ch
    .ok { s with minifat := t, mfree := fr }
  else do
    let ch ← getFatChain s.fat start
    let (t, fr) := freeLoop s.fat s.free ch
    .ok { s with fat := t, free := fr }

/-- The sector part of `next_free_dir_id` (cfb.py:1749-1752). -/
def growDir (s : Fs) : Res Fs :=
  match s.dirChain.getLast? with
  | none => .error .indexError
  | some l => do
    let (sect, s) ← fatChainAppend s (some l) false
    .ok { s with dirChain := s.dirChain ++ [sect], dirCount := s.dirCount + 1 }

/-- `setup_empty` (cfb.py:1185-1237) and the state at cfb.py:1078-1105, after the file was created
with `sector_size` 512 or 4096.  The content of `f` is set by `write_header` etc., modelled
elsewhere. -/
def setupEmpty (ss : Nat) (f : Bytes) : Fs where
  f := f
  ss := ss
  difat := [1 :: List.replicate 108 FREESECT]
  difatStart := FREESECT
  difatCount := 0
  fatCount := 1
  fat := ((List.replicate (ss / 4) FREESECT).set 0 ENDOFCHAIN).set 1 FATSECT
  free := List.range' 2 (ss / 4 - 2)
  minifat := []
  mfree := []
  minifatStart := FREESECT
  minifatCount := 0
  minifatChain := []
  dirChain := [0]
  dirCount := 1
  miniChain := []
  rootStart := none
  cache := Lru.init 512
  ent := fun _ => ⟨none, 0⟩

end Verif.Fat
