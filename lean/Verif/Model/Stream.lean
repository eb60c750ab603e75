import Verif.Model.Fat
/-!
# Streams (`/repo/src/aaf2/cfb.py`, class `Stream`)

Reading and writing the bytes of a stream through the chain of its sectors, the sector cache and
the underlying file.
-/
namespace Verif.Fat
open Verif.Chain

/-- `f.seek(pos); f.write(d)` on a Python file object: writing beyond the end fills the gap with
zeros. (Used in `pokeSector`: cfb.py:295-299.) -/
def pwrite (f : Bytes) (pos : Nat) (d : Bytes) : Bytes :=
  (f ++ List.replicate (pos - f.length) 0).take pos ++ d ++ f.drop (pos + d.length)

/-- `bytearray(n)` filled by `f.seek(pos); f.readinto(..)` (cfb.py:1688-1693). -/
def preadPad (f : Bytes) (pos n : Nat) : Bytes :=
  let d := (f.drop pos).take n
  d ++ List.replicate (n - d.length) 0

/-- `read_sector_data` (cfb.py:1682-1695). -/
def readSector (s : Fs) (sid : Nat) : Bytes × Fs :=
  let (c, r) := Lru.get s.cache sid
  match r with
  | some d => (d, { s with cache := c })
  | none =>
    let d := preadPad s.f ((sid + 1) * s.ss) s.ss
    (d, { s with cache := Lru.set c sid d })

/-- The slots of a `Stream` object (cfb.py:83-90) without `mode`, which no method looks at.
`id` stands for the directory entry. -/
structure Handle where
  id : Nat
  pos : Nat
  chain : List Nat
  deriving DecidableEq

/-- `min_stream_max_size` (cfb.py:1207).  `read_header` accepts any value (cfb.py:1328); files with
another one are outside this model. -/
def MINMAX : Nat := 4096

/-- `is_mini_stream` for an entry of type stream (cfb.py:120-123). -/
def isMini (s : Fs) (id : Nat) : Bool := decide ((s.ent id).size < MINMAX)

/-- Assignment to the `sector_id` and `byte_size` of an entry (cfb.py:646-659; the field widths
are the subject of `C24`). -/
def setEnt (s : Fs) (id : Nat) (e : Ent) : Fs :=
  { s with ent := fun j => if j = id then e else s.ent j }

/-- `list[i]`. (Used in `readMini`: cfb.py:166-203.) -/
def idx (l : List Nat) (i : Nat) : Res Nat :=
  match l[i]? with
  | some x => .ok x
  | none => .error .indexError

/-- `mv[:k] = data[o:o+k]` on a memoryview: the lengths must agree (cfb.py:199). -/
def sliceK (d : Bytes) (o k : Nat) : Res Bytes :=
  if (slice d o (o + k)).length = k then .ok (slice d o (o + k)) else .error .valueError

/-- The sector is not fetched again if it is that of the previous round (cfb.py:181-183). -/
def fetch (s : Fs) (prev : Option (Nat × Bytes)) (sid : Nat) : Bytes × Fs :=
  match prev with
  | some (p, d) => if p = sid then (d, s) else readSector s sid
  | none => readSector s sid

/-- The loop of `read` for a mini stream (cfb.py:166-203), with `n` bytes left to read.
`prev` is `(prev_sid, sector_data)`. -/
def readMini (s : Fs) (chain : List Nat) (i off n : Nat) (prev : Option (Nat × Bytes)) :
    Res (Bytes × Fs) :=
  if n = 0 then .ok ([], s) else do
    let m ← idx chain i
    let mp := m * 64 + off
    let sid ← idx s.miniChain (mp / s.ss)
    let (d, s) := fetch s prev sid
    let k := min n (64 - off)
    if _h : k = 0 then .error .assertion else do
      let a ← sliceK d (mp % s.ss) k
      let (b, s) ← readMini s chain (i + 1) 0 (n - k) (some (sid, d))
      .ok (a ++ b, s)
termination_by n
decreasing_by omega

/-- The loop of `read` for a regular stream (cfb.py:166-203). -/
def readBig (s : Fs) (chain : List Nat) (i off n : Nat) : Res (Bytes × Fs) :=
  if n = 0 then .ok ([], s) else do
    let sid ← idx chain i
    let (d, s') := readSector s sid
    let k := min n (s.ss - off)
    if _h : k = 0 then .error .assertion else do
      let a ← sliceK d off k
      let (b, s) ← readBig s' chain (i + 1) 0 (n - k)
      .ok (a ++ b, s)
termination_by n
decreasing_by omega

/-- How many bytes `read(n)` returns (cfb.py:139-143). -/
def readLen (size pos : Nat) (n : Int) : Nat :=
  if n = -1 then size - pos else (min n ((size : Int) - (pos : Int))).toNat

/-- `read` (cfb.py:137-205). -/
def read (s : Fs) (h : Handle) (n : Int) : Res (Bytes × Fs × Handle) := do
  let size := (s.ent h.id).size
  let k := readLen size h.pos n
  let (d, s) ← if size < MINMAX then readMini s h.chain (h.pos / 64) (h.pos % 64) k none
    else readBig s h.chain (h.pos / s.ss) (h.pos % s.ss) k
  .ok (d, s, { h with pos := h.pos + k })

/-- Writing to the file with removal of the sector from the cache (cfb.py:295-299). -/
def pokeSector (s : Fs) (sid off : Nat) (d : Bytes) : Res Fs := do
  let c ← if Lru.contains s.cache sid then Lru.del s.cache sid else .ok s.cache
  .ok { s with cache := c, f := pwrite s.f ((sid + 1) * s.ss + off) d }

/-- The loop of `write` for a mini stream (cfb.py:266-304). -/
def writeMini (s : Fs) (chain : List Nat) (i off : Nat) (data : Bytes) : Res Fs :=
  if data.length = 0 then .ok s else do
    let m ← idx chain i
    let mp := m * 64 + off
    let sid ← idx s.miniChain (mp / s.ss)
    let k := min data.length (64 - off)
    if _h : k = 0 then .error .assertion else do
      let s ← pokeSector s sid (mp % s.ss) (data.take k)
      writeMini s chain (i + 1) 0 (data.drop k)
termination_by data.length
decreasing_by simp only [List.length_drop]; omega

/-- The loop of `write` for a regular stream (cfb.py:266-304). -/
def writeBig (s : Fs) (chain : List Nat) (i off : Nat) (data : Bytes) : Res Fs :=
  if data.length = 0 then .ok s else do
    let sid ← idx chain i
    let k := min data.length (s.ss - off)
    if _h : k = 0 then .error .assertion else do
      let s ← pokeSector s sid off (data.take k)
      writeBig s chain (i + 1) 0 (data.drop k)
termination_by data.length
decreasing_by simp only [List.length_drop]; omega

/-- `write` once there is room (cfb.py:250-306). -/
def writeData (s : Fs) (h : Handle) (data : Bytes) : Res (Fs × Handle) := do
  let size := (s.ent h.id).size
  let s ← if size < MINMAX then writeMini s h.chain (h.pos / 64) (h.pos % 64) data
    else writeBig s h.chain (h.pos / s.ss) (h.pos % s.ss) data
  let h := { h with pos := h.pos + data.length }
  if h.pos ≤ size then .ok (s, h) else .error .assertion

/-- The loop of `allocate` (cfb.py:231-236), `k` sectors missing. -/
def allocLoop (mini : Bool) : Nat → Fs → Handle → Res (Fs × Handle)
  | 0, s, h => .ok (s, h)
  | k + 1, s, h => do
    let (sid, s) ← fatChainAppend s h.chain.getLast? mini
    let h := { h with chain := h.chain ++ [sid] }
    let s := if (s.ent h.id).start = none then
      setEnt s h.id { s.ent h.id with start := some sid } else s
    allocLoop mini k s h

/-- Sectors needed for a size (cfb.py:225-226). -/
def sectors (size sz : Nat) : Nat := (size + sz - 1) / sz

/-- `allocate` (cfb.py:207-241).  The recursive call of `write` (line 240) writes data that fit, so
it is `writeData`. -/
def allocate (s : Fs) (h : Handle) (size : Nat) : Res (Fs × Handle) := do
  let mini := isMini s h.id
  let old := s.ent h.id
  if mini = true ∧ MINMAX ≤ size then do
    let pos := h.pos
    let (d, s, h) ← read s { h with pos := 0 } (-1)
    if d.length ≠ old.size then .error .assertion else do
      let s ← freeFatChain s old.start true
      let s := setEnt s h.id ⟨none, size⟩
      let (s, h) ← allocLoop false (sectors size s.ss) s { h with chain := [] }
      let (s, h) ← writeData s { h with pos := 0 } d
      .ok (s, { h with pos := min pos d.length })
  else do
    let s := setEnt s h.id { old with size := size }
    let sz := if isMini s h.id then 64 else s.ss
    allocLoop mini (sectors size sz - h.chain.length) s h

/-- `write` (cfb.py:243-308). -/
def write (s : Fs) (h : Handle) (data : Bytes) : Res (Fs × Handle) := do
  let size := (s.ent h.id).size
  let new := max (h.pos + data.length) size
  let (s, h) ← if new > size then allocate s h new else .ok (s, h)
  writeData s h data

/-- The loop of `seek` that pads with zeros (cfb.py:111-115).  `fuel` bounds the number of
rounds. -/
def seekLoop (offset : Nat) : Nat → Nat → Fs → Handle → Res (Fs × Handle)
  | _, 0, s, h => .ok (s, h)
  | 0, _ + 1, _, _ => .error .noFuel
  | fuel + 1, left + 1, s, h => do
    let k := min (s.ss * 4) (offset - (s.ent h.id).size)
    let (s, h) ← write s h (List.replicate k 0)
    seekLoop offset fuel (left + 1 - k) s h

/-- `seek` (cfb.py:98-118). -/
def seek (s : Fs) (h : Handle) (offset : Int) (whence : Nat) : Res (Nat × Fs × Handle) := do
  let size := (s.ent h.id).size
  let offset : Int := if whence = 1 then (h.pos : Int) + offset
    else if whence = 2 then (size : Int) + offset else offset
  if offset < 0 then .error .valueError else do
    let o := offset.toNat
    let (s, h) ← if o > size then seekLoop o (o - size) (o - size) s { h with pos := size }
      else .ok (s, h)
    .ok (o, s, { h with pos := o })

/-- `truncate(size)` (cfb.py:310-369); `truncate()` is `truncate(tell())`.  Negative sizes are not
modelled. -/
def truncate (s : Fs) (h : Handle) (size : Nat) : Res (Fs × Handle) := do
  let e := s.ent h.id
  let mini := isMini s h.id
  if size = 0 then do
    let s ← freeFatChain s e.start mini
    .ok (setEnt s h.id ⟨none, 0⟩, { h with pos := 0, chain := [] })
  else if size > e.size then allocate s h size
  else if size < MINMAX ∧ mini = false then do
    let pos := h.pos
    let (d, s, h) ← read s { h with pos := 0 } size
    let s ← freeFatChain s e.start false
    let s := setEnt s h.id ⟨none, 0⟩
    let (s, h) ← write s { h with pos := 0, chain := [] } d
    let h := { h with pos := min pos size }
    if (s.ent h.id).size = size then .ok (s, h) else .error .assertion
  else do
    let sz := if mini then 64 else s.ss
    let count := sectors size sz
    let (s, h) ← if h.chain.length > count then do
        let last ← idx h.chain (count - 1)
        let first ← idx h.chain count
        let s ← freeFatChain s (some first) mini
        let s ← if mini then do
            let t ← setAt s.minifat last ENDOFCHAIN
            .ok { s with minifat := t }
          else do
            let t ← setAt s.fat last ENDOFCHAIN
            .ok { s with fat := t }
        .ok (s, { h with chain := h.chain.take count })
      else .ok (s, h)
    .ok (setEnt s h.id { s.ent h.id with size := size }, { h with pos := min h.pos size })

/-- Constructing a `Stream` (cfb.py:84-94). -/
def openStream (s : Fs) (id : Nat) : Res Handle := do
  let e := s.ent id
  let chain ← match e.start with
    | none => .ok []
    | some _ => getFatChain (if isMini s id then s.minifat else s.fat) e.start
  .ok { id := id, pos := 0, chain := chain }

/-- What `open(path, 'w')` does with the data of an existing stream (cfb.py:2156-2160), and
`remove` / `rmtree` with those of a removed one (cfb.py:1899-1900, 1912-1913): there the entry is
dropped and a new entry with the same id starts with no sector and size 0 (cfb.py:474-484). -/
def dropStream (s : Fs) (id : Nat) : Res Fs := do
  let e := s.ent id
  let s ← freeFatChain s e.start (isMini s id)
  .ok (setEnt s id ⟨none, 0⟩)

/-- `write_modified_dir_entries` (cfb.py:1521-1542) over the given `(dir_id, data)`. -/
def writeDirs (s : Fs) : List (Nat × Bytes) → Res Fs
  | [] => .ok s
  | (id, d) :: r => do
    let sid ← idx s.dirChain (id * 128 / s.ss)
    let s ← pokeSector s sid (id * 128 % s.ss) d
    writeDirs s r

/-- The part of `write_dir_entries` that clears the free entries (cfb.py:1547-1562); the sector
stays in the cache. -/
def clearDirs (s : Fs) : List Nat → Res Fs
  | [] => .ok s
  | id :: r => do
    let sid ← idx s.dirChain (id * 128 / s.ss)
    clearDirs { s with f := pwrite s.f ((sid + 1) * s.ss + id * 128 % s.ss) (List.replicate 128 0) } r

end Verif.Fat
