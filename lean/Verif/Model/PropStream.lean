import Verif.Model.Types
/-!
# Property streams, path table and index streams (src/aaf2/core.py:70-167, src/aaf2/file.py:296-343,
src/aaf2/properties.py)

A stream is the byte string written to or read from it.  Only little-endian hosts are modelled (core.py:90).
-/
namespace Verif.PropStream

/-- `read_u8/u16le/u32le(f)` on a BytesIO (utils.py:12-47): value and rest; `struct.error` when too short. -/
def rd (n : Nat) (b : Bytes) : Res (Nat × Bytes) :=
  if b.length < n then .error .structError else .ok (unLe (b.take n), b.drop n)

/-- `f.read(n)`: short at the end. (Used in `rd`: utils.py:12-47.) -/
def take (n : Nat) (b : Bytes) : Bytes × Bytes := (b.take n, b.drop n)

/-! ## Property stream -/

/-- One entry of `property_entries` (the property object's pid, format and raw data). (Used in `writeTable`: core.py:151-155.) -/
structure Entry where
  pid : Nat
  format : Nat
  data : Bytes
  deriving DecidableEq

/-- Keys of `property_formats`, properties.py:1279-1291. -/
def formats : List Nat := [0x82, 0x42, 0x22, 0x32, 0x3A, 0x02, 0x12, 0x1A, 0x03, 0x86, 0x40]

/-- The table part of `write_properties`, core.py:151-155. -/
def writeTable : List Entry → Res Bytes
  | [] => .ok []
  | e :: es => do
    let a ← packLe 2 e.pid
    let b ← packLe 2 e.format
    let c ← packLe 2 e.data.length
    let rest ← writeTable es
    return a ++ b ++ c ++ rest

/-- `AAFObject.write_properties`, core.py:135-160: the content given to the stream.  Validation and the index
streams are separate. -/
def write (es : List Entry) : Res Bytes := do
  let n ← packLe 2 es.length
  let t ← writeTable es
  return [0x4c, 32] ++ n ++ t ++ (es.map (·.data)).flatten

/-- `self.property_entries[pid] = p` on a dict in insertion order. (Used in `readLoop`: core.py:93-102.) -/
def put (d : List Entry) (e : Entry) : List Entry :=
  match d with
  | [] => [e]
  | p :: ps => if p.pid = e.pid then e :: ps else p :: put ps e

/-- The loop of `read_properties`, core.py:93-102: `props` is the table (16-bit words as bytes), `f` the rest. -/
def readLoop : Nat → Bytes → Bytes → List Entry → Res (List Entry)
  | 0, _, _, acc => .ok acc
  | n + 1, props, f, acc =>
    if props.length < 6 then .error .indexError
    else
      let pid := unLe (slice props 0 2)
      let format := unLe (slice props 2 4)
      let size := unLe (slice props 4 6)
      if format ∈ formats then readLoop n (props.drop 6) (f.drop size) (put acc ⟨pid, format, f.take size⟩)
      else .error .keyError

/-- `AAFObject.read_properties`, core.py:70-102 (decoding of each property is separate). -/
def read (b : Bytes) : Res (List Entry) :=
  if b.length < 4 then .error .structError
  else if b.take 1 ≠ [0x4c] then .error .notImplemented
  else
    let count := unLe (slice b 2 4)
    let props := slice b 4 (4 + 6 * count)
    if props.length % 2 ≠ 0 then .error .valueError
    else readLoop count props (b.drop (4 + 6 * count)) []

/-! ## Path table -/

/-- Used in `writePaths`: file.py:340-343. -/
def writeU16s : List Nat → Res Bytes
  | [] => .ok []
  | p :: ps => do
    let a ← packLe 2 p
    let b ← writeU16s ps
    return a ++ b

/-- The loop over the paths, file.py:340-343. -/
def writePaths : List (List Nat) → Res Bytes
  | [] => .ok []
  | p :: ps => do
    let a ← writeU16s (p ++ [0])
    let b ← writePaths ps
    return a ++ b

/-- `write_reference_properties`, file.py:328-343. -/
def writePathTable (t : List (List Nat)) : Res Bytes := do
  let a ← packLe 2 t.length
  let b ← packLe 4 ((t.map (fun p => p.length + 1)).foldl (· + ·) 0)
  let c ← writePaths t
  return [0x4c] ++ a ++ b ++ c

/-- The loop of `read_reference_properties`, file.py:317-325. -/
def readPaths : Nat → Bytes → List Nat → List (List Nat) → Res (List (List Nat))
  | 0, _, _, t => .ok t
  | n + 1, f, path, t => do
    let (pid, f) ← rd 2 f
    if pid ≠ 0 then readPaths n f (path ++ [pid]) t else readPaths n f [] (t ++ [path])

/-- `read_reference_properties`, file.py:306-326. -/
def readPathTable (b : Bytes) : Res (List (List Nat)) := do
  let (bo, f) ← rd 1 b
  if bo ≠ 0x4c then throw .notImplemented
  let (pathCount, f) ← rd 2 f
  let (pidCount, f) ← rd 4 f
  let t ← readPaths pidCount f [] []
  if t.length ≠ pathCount then throw .assertion
  return t

/-- `list.index`, for a member. (Used in `weakrefIndex`: file.py:296-304.) -/
def indexOf (t : List (List Nat)) (p : List Nat) : Nat :=
  match t with
  | [] => 0
  | q :: qs => if q = p then 0 else indexOf qs p + 1

/-- `weakref_index`, file.py:296-304: new table and index. -/
def weakrefIndex (t : List (List Nat)) (p : List Nat) : List (List Nat) × Nat :=
  if p ∈ t then (t, indexOf t p) else (t ++ [p], t.length)

/-! ## Index streams -/

/-- State of a `StrongRefVectorProperty` that is stored in its index. (Used in `writeVec`: properties.py:489-502.) -/
structure VecIndex where
  references : List Nat
  nextFree : Nat
  lastFree : Nat
  deriving DecidableEq

/-- Used in `writeVec`: properties.py:489-502. -/
def writeU32s : List Nat → Res Bytes
  | [] => .ok []
  | p :: ps => do
    let a ← packLe 4 p
    let b ← writeU32s ps
    return a ++ b

/-- `StrongRefVectorProperty.write_index`, properties.py:489-502. -/
def writeVec (v : VecIndex) : Res Bytes := do
  let a ← packLe 4 v.references.length
  let b ← packLe 4 v.nextFree
  let c ← packLe 4 v.lastFree
  let d ← writeU32s v.references
  return a ++ b ++ c ++ d

/-- `struct.unpack('<nI', ..)` of exactly `4*n` bytes. (Used in `readVec`: properties.py:472-487.) -/
def unpackU32s (n : Nat) (b : Bytes) : Res (List Nat) :=
  if b.length ≠ 4 * n then .error .structError
  else .ok ((List.range n).map fun i => unLe (slice b (i * 4) ((i + 1) * 4)))

/-- `StrongRefVectorProperty.read_index`, properties.py:472-487. -/
def readVec (b : Bytes) : Res VecIndex := do
  let (count, f) ← rd 4 b
  let (nf, f) ← rd 4 f
  let (lf, f) ← rd 4 f
  let refs ← unpackU32s count (f.take (4 * count))
  return ⟨refs, nf, lf⟩

/-- State of a `StrongRefSetProperty` stored in its index; keys are the bytes of AUIDs or MobIDs,
`references` the dict in iteration order. (Used in `writeSet`: properties.py:788-806.) -/
structure SetIndex where
  references : List (Bytes × Nat)
  nextFree : Nat
  lastFree : Nat
  keyPid : Nat
  keySize : Nat
  deriving DecidableEq

/-- Used in `writeSet`: properties.py:788-806. -/
def writeSetItems : List (Bytes × Nat) → Res Bytes
  | [] => .ok []
  | p :: ps => do
    let a ← packLe 4 p.2
    let b ← packLe 4 1
    let rest ← writeSetItems ps
    return a ++ b ++ p.1 ++ rest

/-- `StrongRefSetProperty.write_index`, properties.py:788-806. -/
def writeSet (s : SetIndex) : Res Bytes := do
  let a ← packLe 4 s.references.length
  let b ← packLe 4 s.nextFree
  let c ← packLe 4 s.lastFree
  let d ← packLe 2 s.keyPid
  let e ← packLe 1 s.keySize
  let r ← writeSetItems s.references
  return a ++ b ++ c ++ d ++ e ++ r

/-- The loop over the unpacked items, properties.py:770-786, into the dict. -/
def readSetItems : Nat → Nat → Bytes → List (Bytes × Nat) → Res (List (Bytes × Nat))
  | 0, _, _, acc => .ok acc
  | n + 1, ks, b, acc =>
    let localKey := unLe (slice b 0 4)
    let refCount := unLe (slice b 4 8)
    let key := slice b 8 (8 + ks)
    if refCount ≠ 1 then .error .assertion
    else readSetItems n ks (b.drop (8 + ks)) (Types.dictSet acc key localKey)

/-- `StrongRefSetProperty.read_index`, properties.py:745-786, into a property with no references yet.  The items
are unpacked from exactly the rest of the stream. -/
def readSet (b : Bytes) : Res SetIndex := do
  let (count, f) ← rd 4 b
  let (nf, f) ← rd 4 f
  let (lf, f) ← rd 4 f
  let (kp, f) ← rd 2 f
  let (ks, f) ← rd 1 f
  if ¬ (ks = 16 ∨ ks = 32) then throw .assertion
  if f.length ≠ count * (8 + ks) then throw .structError
  let refs ← readSetItems count ks f []
  return ⟨refs, nf, lf, kp, ks⟩

/-- State of a `WeakRefArrayProperty` stored in its index. (Used in `writeWeak`: properties.py:1155-1169.) -/
structure WeakIndex where
  references : List Bytes
  index : Nat
  keyPid : Nat
  keySize : Nat
  deriving DecidableEq

/-- `WeakRefArrayProperty.write_index`, properties.py:1155-1169. -/
def writeWeak (w : WeakIndex) : Res Bytes := do
  let a ← packLe 4 w.references.length
  let b ← packLe 2 w.index
  let c ← packLe 2 w.keyPid
  let d ← packLe 1 w.keySize
  return a ++ b ++ c ++ d ++ w.references.flatten

/-- The loop of `read_index`, properties.py:1148-1153. -/
def readKeys : Nat → Nat → Bytes → List Bytes
  | 0, _, _ => []
  | n + 1, ks, b => b.take ks :: readKeys n ks (b.drop ks)

/-- `WeakRefArrayProperty.read_index`, properties.py:1132-1153.  (A short key at the end is kept as it is; the code
raises there.) -/
def readWeak (b : Bytes) : Res WeakIndex := do
  let (count, f) ← rd 4 b
  let (ix, f) ← rd 2 f
  let (kp, f) ← rd 2 f
  let (ks, f) ← rd 1 f
  if ¬ (ks = 16 ∨ ks = 32) then throw .assertion
  return ⟨readKeys count ks f, ix, kp, ks⟩

/-- `WeakRefProperty`: index, key pid and key. (Used in `encWeakRef`: properties.py:1046-1056.) -/
structure WeakRef where
  index : Nat
  keyPid : Nat
  ref : Bytes
  deriving DecidableEq

/-- `WeakRefProperty.encode`, properties.py:1046-1056. -/
def encWeakRef (w : WeakRef) : Res Bytes := do
  if ¬ (w.ref.length = 16 ∨ w.ref.length = 32) then throw .assertion
  let a ← packLe 2 w.index
  let b ← packLe 2 w.keyPid
  let c ← packLe 1 w.ref.length
  return a ++ b ++ c ++ w.ref

/-- `WeakRefProperty.decode`, properties.py:1035-1044: the key size read is that of the key. -/
def decWeakRef (b : Bytes) : Res WeakRef := do
  let (ix, f) ← rd 2 b
  let (kp, f) ← rd 2 f
  let (ks, f) ← rd 1 f
  if ¬ (ks = 16 ∨ ks = 32) then throw .assertion
  return ⟨ix, kp, f.take ks⟩

end Verif.PropStream
