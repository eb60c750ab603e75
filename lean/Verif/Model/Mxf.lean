import Verif.Model.Klv
import Verif.Model.MobID
import Verif.Model.Defs
import Verif.Spec.Mxf
/-!
# Linking MXF files (`/repo/src/aaf2/mxf.py`, `/repo/src/aaf2/content.py` 71-75)

The sets of the header metadata are read into a table of objects by instance id; then mobs are made of the packages.  The classes that are followed are preface, content storage, packages,
tracks, sequences, source clips, timecodes, fillers and essence groups.  Of the others (descriptors, locators, tagged values, pulldown, scope references) reading is
left out, as are the names, dates, usage codes, comments and descriptors of packages and the names of tracks.  `AUID`s are their bytes (`bytes_le`).
-/
namespace Verif.Mxf
open Verif.Klv Verif.Spec.Mxf

/-- Classes (mxf.py:197-822, `class_id`); `other` are those that are registered and not followed. -/
inductive Cls where
  | preface | storage | material | source | track | static | event | sequence | clip | timecode | filler | group | other
  deriving DecidableEq

/-- Byte 14 of the class ids; the rest is the same in all. (Used in `classOf`: mxf.py:22-26, 974.) -/
def classes : List (UInt8 × Cls) :=
  [(0x2f, .preface), (0x18, .storage), (0x36, .material), (0x37, .source), (0x3b, .track), (0x3a, .static), (0x39, .event), (0x0f, .sequence), (0x11, .clip), (0x14, .timecode), (0x09, .filler),
   (0x05, .group), (0x0c, .other), (0x0d, .other), (0x44, .other), (0x28, .other), (0x29, .other), (0x5c, .other), (0x51, .other), (0x48, .other), (0x47, .other), (0x42, .other), (0x4a, .other),
   (0x2e, .other), (0x32, .other), (0x23, .other), (0x3f, .other)]

/-- `MXF_CLASSES.get(key)` (mxf.py:22-26, 974); `key` is `bytes_le`. -/
def classOf (k : Bytes) : Option Cls := (classes.find? fun x => Auid.ofBytesBe (key x.1) = k).map (·.2)

/-- The functions that read values. (Used in `prefaceTags`: mxf.py:203-206.) -/
inductive Dec where
  | u (n : Nat) | s (n : Nat) | ref | refs | rational | mob | kind | bool
  deriving DecidableEq

/-- Values in `data` of an object. (Made of `Obj.kind` mxf.py:396, 413.) -/
inductive Value where
  | nat (v : Nat) | int (v : Int) | ref (b : Bytes) | refs (l : List (Option Bytes)) | rational (n d : Nat) | mob (b : Bytes) | kind (n : Option (Option Defs.Str)) | bool (b : Bool)
  deriving DecidableEq

/-- `reverse_auid` (mxf.py:62-64). -/
def reverseAuid (b : Bytes) : Res Bytes := Auid.ofHex ((Auid.hex b).drop 16 ++ (Auid.hex b).take 16)

/-- `DataDefs.get(str(datadef))` (mxf.py:69): the entry of the number in the table of the library. -/
def entry (n : Nat) : Option (Option Defs.Str) := (Defs.dataDefs.find? fun e => e.1 = n).map (·.2)

/-- `decode_datadef` (mxf.py:66-70): the name in the table of the library, `none` if there is no entry. -/
def decodeDatadef (v : Bytes) : Res (Option (Option Defs.Str)) := (reverseAuid (Auid.ofBytesBe v)).map fun a => entry (Auid.int a)

/-- `decode_mob_id` (mxf.py:138-142). -/
def decodeMobId (v : Bytes) : Res Bytes := MobID.ofUrn (Auid.repr (Auid.ofBytesBe (v.take 16)) ++ Auid.repr (Auid.ofBytesBe (v.drop 16)))

/-- `decode_strong_ref_array` (mxf.py:40-53, with `read_strongref`): at the end of the value a reference is `None`. -/
def decodeRefs (v : Bytes) : Res (List (Option Bytes)) :=
  match readBe 4 v 0 with
  | .error e => .error e
  | .ok (count, _) => .ok ((List.range count).map fun i => if slice v (8 + 16 * i) (8 + 16 * i + 16) = [] then none else some (Auid.ofBytesBe (slice v (8 + 16 * i) (8 + 16 * i + 16))))

/-- Two's complement. (Used in `decode`: mxf.py:157-159.) -/
def toSigned (n v : Nat) : Int := if 2 * v < 256 ^ n then v else (v : Int) - (256 ^ n : Nat)

/-- Reading a value. (Used in `readTag`: mxf.py:157-159.) -/
def decode : Dec → Bytes → Res Value
  | .u n, v => match readBe n v 0 with | .error e => .error e | .ok (x, _) => .ok (.nat x)
  | .s n, v => match readBe n v 0 with | .error e => .error e | .ok (x, _) => .ok (.int (toSigned n x))
  | .ref, v => .ok (.ref (Auid.ofBytesBe v))
  | .refs, v => match decodeRefs v with | .error e => .error e | .ok l => .ok (.refs l)
  | .rational, v =>
    match readBe 4 v 0 with
    | .error e => .error e
    | .ok (n, t) => match readBe 4 v t with | .error e => .error e | .ok (d, _) => .ok (.rational n d)
  | .mob, v => (decodeMobId v).map .mob
  | .kind, v => (decodeDatadef v).map .kind
  | .bool, v => match readBe 1 v 0 with | .error e => .error e | .ok (x, _) => .ok (.bool (x = 1))

/-- The tags of the classes: preface (mxf.py:203-206), content storage (214-217). -/
def prefaceTags : List (Nat × Dec) := [(0x3b09, .ref), (0x3b03, .ref)]
/-- mxf.py:214-217. -/
def storageTags : List (Nat × Dec) := [(0x1902, .refs), (0x1901, .refs)]
/-- Packages (mxf.py:227-230; the others are left out). -/
def packageTags : List (Nat × Dec) := [(0x4403, .refs), (0x4401, .mob)]
/-- Tracks (mxf.py:309-318; the name is left out). -/
def trackTags : List (Nat × Dec) := [(0x4b02, .s 8), (0x4b01, .rational), (0x4803, .ref), (0x4804, .u 4), (0x4801, .u 4)]
/-- Components (mxf.py:351-370; those of pulldown and scope references, and `StillFrame`, are left out). -/
def componentTags : List (Nat × Dec) :=
  [(0x1001, .refs), (0x1201, .u 8), (0x1102, .u 4), (0x1101, .mob), (0x0202, .u 8), (0x0201, .kind), (0x1503, .bool), (0x1502, .u 2), (0x1501, .u 8), (0x0501, .refs)]

/-- The tags that `read_tag` of a class reads. (Used in `readTag`: mxf.py:157-159.) -/
def Cls.tags : Cls → List (Nat × Dec)
  | .preface => prefaceTags
  | .storage => storageTags
  | .material | .source => packageTags
  | .track | .static | .event => trackTags
  | .sequence | .clip | .timecode | .filler | .group => componentTags
  | .other => []

/-- An object: its class, `instance_id`, `data` (the newest value of a tag first). (Used in `readTag`: mxf.py:157-159.) -/
structure Obj where
  cls : Cls
  id : Option Bytes
  data : List (Nat × Value)
  deriving DecidableEq

/-- The identifiers of the tags that are read with the primer (mxf.py:167-178), big endian: three numbers, three arrays of references. -/
def dynamicNumbers : List Bytes :=
  [[0xa0, 0x24, 0x00, 0x60, 0x94, 0xeb, 0x75, 0xcb, 0xce, 0x2a, 0xca, 0x50, 0x51, 0xab, 0x11, 0xd3], [0xa0, 0x24, 0x00, 0x60, 0x94, 0xeb, 0x75, 0xcb, 0xce, 0x2a, 0xca, 0x4d, 0x51, 0xab, 0x11, 0xd3],
   [0xa0, 0x22, 0x00, 0x60, 0x94, 0xeb, 0x75, 0xcb, 0x96, 0xc4, 0x69, 0x92, 0x4f, 0x62, 0x11, 0xd3]]
/-- mxf.py:167-178. -/
def dynamicRefs : List Bytes :=
  [[0x06, 0x0e, 0x2b, 0x34, 0x01, 0x01, 0x01, 0x09, 0x06, 0x01, 0x01, 0x04, 0x06, 0x10, 0x00, 0x00], [0xa0, 0x1c, 0x00, 0x04, 0xac, 0x96, 0x9f, 0x50, 0x60, 0x95, 0x81, 0x83, 0x47, 0xb1, 0x11, 0xd4],
   [0xa0, 0x1c, 0x00, 0x04, 0xac, 0x96, 0x9f, 0x50, 0x60, 0x95, 0x81, 0x85, 0x47, 0xb1, 0x11, 0xd4]]

/-- The part of `read_properties` with the primer (mxf.py:164-178): only if it raises; the values are used in parts that are left out. -/
def readDynamic (locals : Option (List (Nat × Bytes))) (tag : Nat) (v : Bytes) : Res Unit :=
  match locals with
  | none => .error .attributeError
  | some l =>
    match l.lookup tag with
    | none => .ok ()
    | some uid =>
      if uid ∈ dynamicNumbers.map Auid.ofBytesBe ∨ uid ∈ dynamicRefs.map Auid.ofBytesBe then
        match readBe 4 v 0 with
        | .error e => .error e
        | .ok _ => .ok ()
      else .ok ()

/-- `read_tag` (mxf.py:157-159 and those of the classes). -/
def readTag (o : Obj) (tag : Nat) (v : Bytes) : Res Obj :=
  let o := if tag = 0x3c0a then { o with id := some (Auid.ofBytesBe v) } else o
  match o.cls.tags.lookup tag with
  | none => .ok o
  | some d =>
    match decode d v with
    | .error e => .error e
    | .ok x => .ok { o with data := (tag, x) :: o.data }

/-- `read_properties` (mxf.py:161-178) for the tags that `iter_tags` yields, and the exception that ends it. -/
def readProperties (locals : Option (List (Nat × Bytes))) : Obj → List (Nat × Bytes) → Option Err → Res Obj
  | o, [], none => .ok o
  | _, [], some e => .error e
  | o, (tag, v) :: r, e =>
    match readTag o tag v with
    | .error e => .error e
    | .ok o =>
      match readDynamic locals tag v with
      | .error e => .error e
      | .ok () => readProperties locals o r e

/-- `MXFFile` (mxf.py:862-870): `objects` has the newest object of an id first. -/
structure State where
  objects : List (Option Bytes × Obj)
  locals : Option (List (Nat × Bytes))
  preface : Option Obj
  pattern : Option Bytes
  limit : Option Nat

/-- `MXFFile.__init__` before reading (mxf.py:862-870). -/
def State.new : State := ⟨[], some [], none, none, none⟩

/-- `read_object` (mxf.py:968-983). -/
def readObject (data : Bytes) (k : Bytes) (length tell : Nat) (locals : Option (List (Nat × Bytes))) : Res (Option Obj) :=
  if (Auid.bytesBe k)[5]? ≠ some 0x53 then .ok none
  else
    let (tags, e, _) := iterTags data tell length
    match classOf k with
    | some c =>
      match readProperties locals ⟨c, none, []⟩ tags e with
      | .error e => .error e
      | .ok o => .ok (some o)
    | none =>
      match e with
      | some e => .error e
      | none => .ok none

/-- `read_header` (mxf.py:932-948): the operational pattern and the size of the partition. -/
def readHeader (data : Bytes) (length tell : Nat) : Res (Option Bytes × Nat) := do
  let (_, t) ← readBe 2 data tell
  let (_, t) ← readBe 2 data t
  let (kag, t) ← readBe 4 data t
  let (_, t) ← readBe 8 data t
  let (_, t) ← readBe 8 data t
  let (_, t) ← readBe 8 data t
  let (headerBytes, t) ← readBe 8 data t
  let (indexBytes, t) ← readBe 8 data t
  let (_, t) ← readBe 4 data t
  let (_, t) ← readBe 8 data t
  let (_, t) ← readBe 4 data t
  let op := slice data t (t + 16)
  let a ← roundToKag length kag
  let b ← roundToKag headerBytes kag
  let c ← roundToKag indexBytes kag
  return (if op = [] then none else some (Auid.ofBytesBe op), a + b + c)

/-- The keys of primer packs and of closed and complete header partitions (mxf.py:879, 881). -/
def primerKey : Bytes := [0x06, 0x0e, 0x2b, 0x34, 0x02, 0x05, 0x01, 0x01, 0x0d, 0x01, 0x02, 0x01, 0x01, 0x05, 0x01, 0x00]
/-- mxf.py:879, 881. -/
def headerKey : Bytes := [0x06, 0x0e, 0x2b, 0x34, 0x02, 0x05, 0x01, 0x01, 0x0d, 0x01, 0x02, 0x01, 0x01, 0x02, 0x04, 0x00]

/-- What is done with one packet (mxf.py:879-893). -/
def readPacket (data : Bytes) (s : State) (k : Bytes) (length tell : Nat) : Res State :=
  if k = Auid.ofBytesBe primerKey then
    match readPrimer data tell with
    | .error e => .error e
    | .ok t => .ok { s with locals := t.map List.reverse }
  else if k = Auid.ofBytesBe headerKey then
    match readHeader data length tell with
    | .error e => .error e
    | .ok (op, size) => .ok { s with pattern := op, limit := some size }
  else
    match readObject data k length tell s.locals with
    | .error e => .error e
    | .ok none => .ok s
    | .ok (some o) => .ok { s with objects := (o.id, o) :: s.objects, preface := if o.cls = .preface then some o else s.preface }

/-- The loop of `MXFFile.__init__` (mxf.py:873-893) over what `iter_kl` yields, and the exception that ends that. -/
def readPackets (data : Bytes) : State → List (Bytes × Nat × Nat) → Option Err → Res State
  | s, [], none => .ok s
  | _, [], some e => .error e
  | s, (k, length, tell) :: r, e =>
    if s.limit.any (fun l => tell > l) then .ok s
    else
      match readPacket data s k length tell with
      | .error e => .error e
      | .ok s => readPackets data s r e

/-- `MXFFile(path)` (mxf.py:862-893). -/
def load (data : Bytes) : Res State := readPackets data .new (iterKl data (fun _ t => t) 0 0 0).1 (iterKl data (fun _ t => t) 0 0 0).2

/-- The operational pattern (mxf.py:1018-1026): of the header partition, or of the preface. -/
def patternOf (s : State) : Res (Option Bytes) :=
  match s.pattern with
  | some op => .ok (some op)
  | none =>
    match s.preface with
    | none => .error .attributeError
    | some p => .ok (match p.data.lookup 0x3b09 with | some (.ref b) => some b | _ => none)

/-- `operation_pattern == "OPAtom"` (mxf.py:1028-1053, content.py:73) for a pattern, big endian. -/
def isOpAtom (op : Bytes) : Bool :=
  decide (op.take 12 ∈ [[0x06, 0x0e, 0x2b, 0x34, 0x04, 0x01, 0x01, 0x01, 0x0d, 0x01, 0x02, 0x01], [0x06, 0x0e, 0x2b, 0x34, 0x04, 0x01, 0x01, 0x02, 0x0d, 0x01, 0x02, 0x01],
    [0x06, 0x0e, 0x2b, 0x34, 0x04, 0x01, 0x01, 0x03, 0x0d, 0x01, 0x02, 0x01]]) && op[12]? == some 0x10

/-- `resolve` (mxf.py:896-898). -/
def resolve (T : List (Option Bytes × Obj)) : Option Bytes → Option Obj
  | none => none
  | some r => T.lookup (some r)

/-- `self.data[key]` of a number. (Used in `Obj.length?`: mxf.py:414-415.) -/
def Obj.nat? (o : Obj) (t : Nat) : Option Nat := match o.data.lookup t with | some (.nat v) => some v | _ => none

/-- `self.data.get(key)` of a mob id, and of a number with a sign. (Used in `linkSeg`: mxf.py:393-402, 411-416, 425-434, 462-466, 491-498.) -/
def Obj.mob? (o : Obj) (t : Nat) : Option Bytes := match o.data.lookup t with | some (.mob b) => some b | _ => none
/-- Used in `linkTrack`: mxf.py:322-331. -/
def Obj.int? (o : Obj) (t : Nat) : Option Int := match o.data.lookup t with | some (.int v) => some v | _ => none

/-- A number that is put into a property with 8 bytes and a sign. (Used in `Obj.length?`: mxf.py:414-415.) -/
def int64 (v : Nat) : Res Nat := if v < 2 ^ 63 then .ok v else .error .structError

/-- `self.data[key]`, put into such a property. (Used in `readObject`: mxf.py:968-983.) -/
def Obj.length (o : Obj) (t : Nat) : Res Nat :=
  match o.nat? t with
  | none => .error .keyError
  | some v => int64 v

/-- The same, when the key may be missing (mxf.py:414-415). -/
def Obj.length? (o : Obj) (t : Nat) : Res (Option Nat) :=
  match o.nat? t with
  | none => .ok none
  | some v => match int64 v with | .error e => .error e | .ok v => .ok (some v)

/-- `media_kind = self.data['DataDef']`, with `or 'DataDef_Unknown'` for source clips (mxf.py:396, 413; components.py:46-48): the identifier of the definition in the dictionary of the file.
For a `None` there is an `AttributeError` in `short_name` (dictionary.py:17). -/
def Obj.kind (dict : List (Nat × Option Defs.Str)) (o : Obj) (default : Option Defs.Str) : Res Nat :=
  match o.data.lookup 0x0201 with
  | some (.kind n) =>
    match (match n with | some (some n) => some n | _ => default) with
    | none => .error .attributeError
    | some n =>
      match Defs.lookup Defs.asciiLower dict (.text n) with
      | .error e => .error e
      | .ok none => .error .attributeError
      | .ok (some k) => .ok k
  | _ => .error .keyError

/-- "DataDef_Unknown". (Used in `linkSeg`: mxf.py:393-402, 411-416, 425-434, 462-466, 491-498.) -/
def unknownName : Defs.Str := Defs.dataPrefix ++ [85, 110, 107, 110, 111, 119, 110]

/-- `iter_strong_refs` (mxf.py:188-191): without the key there are none. -/
def Obj.strongRefs (T : List (Option Bytes × Obj)) (o : Obj) (t : Nat) : List (Option Obj) :=
  match o.data.lookup t with
  | some (.refs l) => l.map (resolve T)
  | _ => []

/-- `link` of all of a list; `None` has no `link`. (Used in `linkSeg`: mxf.py:393-402, 411-416, 425-434, 462-466, 491-498.) -/
def linkAll {α : Type} (f : Obj → Res α) : List (Option Obj) → Res (List α)
  | [] => .ok []
  | none :: _ => .error .attributeError
  | some o :: r =>
    match f o with
    | .error e => .error e
    | .ok x =>
      match linkAll f r with
      | .error e => .error e
      | .ok l => .ok (x :: l)

/-- `link` of segments (mxf.py:393-402, 411-416, 425-434, 462-466, 491-498); the first argument bounds the depth (`RecursionError` is `noFuel`).  For an object of another class the exceptions
differ; here it is `typeError`. -/
def linkSeg (dict : List (Nat × Option Defs.Str)) (T : List (Option Bytes × Obj)) : Nat → Obj → Res Seg
  | 0, _ => .error .noFuel
  | n + 1, o =>
    match o.cls with
    | .filler => do
      let k ← o.kind dict none
      let l ← o.length 0x0202
      return .filler k l
    | .clip => do
      let k ← o.kind dict (some unknownName)
      let slot := o.nat? 0x1102
      let start ← o.length? 0x1201
      let l ← o.length? 0x0202
      return .clip k l (o.mob? 0x1101) slot start
    | .timecode => do
      let fps ← match o.nat? 0x1502 with | some v => .ok v | none => .error .keyError
      let drop ← match o.data.lookup 0x1503 with | some (.bool b) => .ok b | _ => .error .keyError
      let start ← o.length 0x1501
      let k ← o.kind dict none
      let l ← o.length 0x0202
      return .timecode k l fps drop start
    | .sequence => do
      let k ← o.kind dict none
      let l ← int64 ((o.nat? 0x0202).getD 0)
      let parts ← linkAll (linkSeg dict T n) (o.strongRefs T 0x1001)
      return .sequence k l parts
    | .group => do
      let k ← o.kind dict none
      let l ← o.length 0x0202
      let parts ← linkAll (linkSeg dict T n) (o.strongRefs T 0x0501)
      return .group k l parts
    | _ => .error .typeError

/-- A rational that is put into a property (rational.py:94-109; two numbers of 4 bytes with a sign). -/
def rate (n d : Nat) : Res (Nat × Nat) :=
  if d = 0 then if n = 0 then .ok (0, 1) else .error .zeroDivision
  else if n < 2 ^ 31 ∧ d < 2 ^ 31 then .ok (n, d) else .error .structError

/-- The edit rate of a track, if it has one (mxf.py:325-327). -/
def Obj.rate? (o : Obj) : Res (Option (Nat × Nat)) :=
  match o.data.lookup 0x4b01 with
  | some (.rational n d) => (rate n d).map some
  | _ => .ok none

/-- `MXFTrack.link` (mxf.py:322-331). -/
def linkTrack (dict : List (Nat × Option Defs.Str)) (T : List (Option Bytes × Obj)) (fuel : Nat) (o : Obj) : Res Track := do
  let r ← o.rate?
  let seg ← match (match o.data.lookup 0x4803 with | some (.ref b) => resolve T (some b) | _ => none) with
    | none => .error .valueError
    | some s => linkSeg dict T fuel s
  return ⟨o.nat? 0x4801, r, o.nat? 0x4804, o.int? 0x4b02, seg⟩

/-- The tracks of a package one after the other (mxf.py:258-265): those made so far, and the exception. -/
def linkTracks (dict : List (Nat × Option Defs.Str)) (T : List (Option Bytes × Obj)) (fuel : Nat) : List (Option Obj) → List Track × Option Err
  | [] => ([], none)
  | none :: _ => ([], some .attributeError)
  | some o :: r =>
    match o.cls with
    | .static | .event => linkTracks dict T fuel r
    | .track =>
      match linkTrack dict T fuel o with
      | .error e => ([], some e)
      | .ok t => (t :: (linkTracks dict T fuel r).1, (linkTracks dict T fuel r).2)
    | _ => ([], some .typeError)

/-- `MXFFile.link` (mxf.py:914-923) with `MXFPackage.link` (mxf.py:248-285) for the packages one after the other, in a file that has the mobs `there`: the mobs that are added, and the exception.  A
mob is in the file before its tracks are made. -/
def linkPackages (dict : List (Nat × Option Defs.Str)) (T : List (Option Bytes × Obj)) (fuel : Nat) : List Bytes → List (Option Obj) → List Mob × Option Err
  | _, [] => ([], none)
  | _, none :: _ => ([], some .attributeError)
  | there, some o :: r =>
    if o.cls = .material ∨ o.cls = .source then
      match o.data.lookup 0x4401 with
      | some (.mob id) =>
        if id ∈ there then linkPackages dict T fuel there r
        else
          match linkTracks dict T fuel (o.strongRefs T 0x4403) with
          | (ts, some e) => ([⟨o.cls = .material, id, ts⟩], some e)
          | (ts, none) => (⟨o.cls = .material, id, ts⟩ :: (linkPackages dict T fuel (id :: there) r).1, (linkPackages dict T fuel (id :: there) r).2)
      | _ => ([], some .valueError)
    else ([], some .attributeError)

/-- `link_external_mxf` (content.py:71-75; mxf.py:900-923): the mobs that are added, and the exception (`Exception` is `valueError`). -/
def linkExternal (dict : List (Nat × Option Defs.Str)) (fuel : Nat) (there : List Bytes) (data : Bytes) : List Mob × Option Err :=
  match load data with
  | .error e => ([], some e)
  | .ok s =>
    match patternOf s with
    | .error e => ([], some e)
    | .ok op =>
      if !op.any (fun op => isOpAtom (Auid.bytesBe op)) then ([], some .valueError)
      else match s.preface with
      | none => ([], some .attributeError)
      | some p =>
        match (match p.data.lookup 0x3b03 with | some (.ref b) => resolve s.objects (some b) | _ => none) with
        | none => ([], some .valueError)
        | some c => linkPackages dict s.objects fuel there (c.strongRefs s.objects 0x1901)

end Verif.Mxf
