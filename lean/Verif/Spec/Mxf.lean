import Verif.Model.Bytes
/-!
# What the header metadata of an MXF file describe

From SMPTE 377 as far as the library uses it: sets with local tags, instance ids and strong references; packages with tracks with segments.  Identifiers of objects are
the 16 bytes that are in the file; a data definition is the number of its AAF identifier.
-/
namespace Verif.Spec.Mxf

/-- A metadata set: its key, and its local tags with their bytes. -/
structure Item where
  key : Bytes
  tags : List (Nat × Bytes)
  deriving DecidableEq

/-- A segment of a track. -/
inductive Seg where
  | filler (kind length : Nat)
  | clip (kind : Nat) (length : Option Nat) (mob : Option Bytes) (slot start : Option Nat)
  | timecode (kind length fps : Nat) (drop : Bool) (start : Nat)
  | sequence (kind length : Nat) (parts : List Seg)
  | group (kind length : Nat) (parts : List Seg)

/-- A track. -/
structure Track where
  id : Option Nat
  rate : Option (Nat × Nat)
  number : Option Nat
  origin : Option Int
  segment : Seg

/-- A package, or a mob: if it is a master mob, its id, its tracks. -/
structure Mob where
  master : Bool
  id : Bytes
  tracks : List Track

/-- The key of the class with the number `c` (SMPTE 377, annexes A to D). -/
def key (c : UInt8) : Bytes := [0x06, 0x0e, 0x2b, 0x34, 0x02, 0x53, 0x01, 0x01, 0x0d, 0x01, 0x01, 0x01, 0x01, 0x01, c, 0x00]

/-- How the value of a tag is made. -/
inductive Form where
  | fixed (n : Nat)
  | refs
  deriving DecidableEq

/-- The tags that are used, with the sizes of their values. -/
def forms : List (Nat × Form) :=
  [(0x3c0a, .fixed 16), (0x3b09, .fixed 16), (0x3b03, .fixed 16), (0x1902, .refs), (0x1901, .refs), (0x4403, .refs), (0x4401, .fixed 32), (0x4b02, .fixed 8), (0x4b01, .fixed 8), (0x4803, .fixed 16),
   (0x4804, .fixed 4), (0x4801, .fixed 4), (0x1001, .refs), (0x1201, .fixed 8), (0x1102, .fixed 4), (0x1101, .fixed 32), (0x0202, .fixed 8), (0x0201, .fixed 16), (0x1503, .fixed 1),
   (0x1502, .fixed 2), (0x1501, .fixed 8), (0x0501, .refs)]

/-- The value of a tag has the size of its form; tags that are not used may have anything. -/
def Fits (t : Nat) (v : Bytes) : Prop :=
  match forms.lookup t with
  | none => True
  | some (.fixed n) => v.length = n
  | some .refs => 8 ≤ v.length

/-- A set as it should be: 16 bytes of key, tags that are different, values that fit. -/
structure Item.Good (s : Item) : Prop where
  key : s.key.length = 16
  set : s.key[5]? = some 0x53
  nodup : (s.tags.map (·.1)).Nodup
  small : ∀ x ∈ s.tags, x.1 < 65536 ∧ x.2.length < 65536
  fits : ∀ x ∈ s.tags, Fits x.1 x.2

/-- The set with the instance id `i` and the class `c`. -/
structure Is (F : List Item) (i : Bytes) (c : UInt8) (s : Item) : Prop where
  mem : s ∈ F
  key : s.key = key c
  id : (0x3c0a, i) ∈ s.tags

/-- The value of a tag; a tag that is not there has none. -/
def Has (s : Item) (t : Nat) : Option Bytes → Prop
  | some v => (t, v) ∈ s.tags
  | none => t ∉ s.tags.map (·.1)

/-- Strong references in an array. -/
def refs (l : List Bytes) : Bytes := beN 4 l.length ++ beN 4 16 ++ l.flatten

/-- The label of a data definition: the halves of the AAF identifier are exchanged. -/
def label (kind : Nat) : Bytes := (beN 16 kind).drop 8 ++ (beN 16 kind).take 8

/-- The mob id that a UMID of the file stands for: the material number is a structure of little-endian numbers, with its halves exchanged when it begins like a label. -/
def mobId (u : Bytes) : Bytes :=
  let swapped (m : Bytes) : Bytes := (slice m 0 4).reverse ++ (slice m 4 6).reverse ++ (slice m 6 8).reverse
  if u[11]? = some 0 ∧ slice u 16 22 = [0x06, 0x0e, 0x2b, 0x34, 0x7f, 0x7f] then u.take 16 ++ swapped (u.drop 24) ++ slice u 16 24
  else u.take 16 ++ swapped (u.drop 16) ++ slice u 24 32

/-- A set says what kind of data is in the segment (tag `0201`) and how long it is (tag `0202`); the kinds are those that are known. -/
structure Comp (kinds : List Nat) (s : Item) (kind length : Nat) : Prop where
  known : kind ∈ kinds
  size : kind < 256 ^ 16
  says : (0x0201, label kind) ∈ s.tags
  long : (0x0202, beN 8 length) ∈ s.tags
  small : length < 2 ^ 63

/-- The set with the id `i` stands for a segment. -/
inductive IsSeg (kinds : List Nat) (F : List Item) : Bytes → Seg → Prop
  | filler (i s kind length) (h : Is F i 0x09 s) (hc : Comp kinds s kind length) : IsSeg kinds F i (.filler kind length)
  | clip (i s kind length mob slot start) (h : Is F i 0x11 s) (hk : kind ∈ kinds) (hz : kind < 256 ^ 16) (hd : (0x0201, label kind) ∈ s.tags)
      (hl : Has s 0x0202 (length.map (beN 8))) (hl' : ∀ x, length = some x → x < 2 ^ 63) (hm : Has s 0x1101 mob)
      (hs : Has s 0x1102 (slot.map (beN 4))) (hs' : ∀ x, slot = some x → x < 2 ^ 32) (ht : Has s 0x1201 (start.map (beN 8))) (ht' : ∀ x, start = some x → x < 2 ^ 63) :
      IsSeg kinds F i (.clip kind length (mob.map mobId) slot start)
  | timecode (i s kind length fps drop start) (h : Is F i 0x14 s) (hc : Comp kinds s kind length) (hf : (0x1502, beN 2 fps) ∈ s.tags) (hf' : fps < 65536)
      (hd : (0x1503, [if drop then 1 else 0]) ∈ s.tags) (hs : (0x1501, beN 8 start) ∈ s.tags) (hs' : start < 2 ^ 63) : IsSeg kinds F i (.timecode kind length fps drop start)
  | sequence (i s kind length ids parts) (h : Is F i 0x0f s) (hc : Comp kinds s kind length) (hr : (0x1001, refs ids) ∈ s.tags) (hi : ∀ x ∈ ids, x.length = 16)
      (hn : ids.length < 2 ^ 32) (hl : ids.length = parts.length) (hp : ∀ k (h1 : k < ids.length) (h2 : k < parts.length), IsSeg kinds F ids[k] parts[k]) : IsSeg kinds F i (.sequence kind length parts)
  | group (i s kind length ids parts) (h : Is F i 0x05 s) (hc : Comp kinds s kind length) (hr : (0x0501, refs ids) ∈ s.tags) (hi : ∀ x ∈ ids, x.length = 16)
      (hn : ids.length < 2 ^ 32) (hl : ids.length = parts.length) (hp : ∀ k (h1 : k < ids.length) (h2 : k < parts.length), IsSeg kinds F ids[k] parts[k]) : IsSeg kinds F i (.group kind length parts)

/-- The bytes of a signed number of 8 bytes. -/
def signed (v : Int) : Bytes := beN 8 (if v < 0 then (v + 2 ^ 64).toNat else v.toNat)

/-- The set with the id `i` stands for a track of a timeline. -/
structure IsTrack (kinds : List Nat) (F : List Item) (i : Bytes) (t : Track) : Prop where
  set : ∃ s, Is F i 0x3b s ∧ Has s 0x4801 (t.id.map (beN 4)) ∧ Has s 0x4b01 (t.rate.map fun r => beN 4 r.1 ++ beN 4 r.2) ∧ Has s 0x4804 (t.number.map (beN 4)) ∧
    Has s 0x4b02 (t.origin.map signed) ∧ ∃ j, (0x4803, j) ∈ s.tags ∧ j.length = 16 ∧ IsSeg kinds F j t.segment
  id : ∀ x, t.id = some x → x < 2 ^ 32
  number : ∀ x, t.number = some x → x < 2 ^ 32
  rate : ∀ x, t.rate = some x → x.1 < 2 ^ 31 ∧ 0 < x.2 ∧ x.2 < 2 ^ 31
  origin : ∀ x, t.origin = some x → -2 ^ 63 ≤ x ∧ x < 2 ^ 63

/-- The tracks of a package: those of timelines; static tracks and event tracks are not in the mob. -/
inductive IsTracks (kinds : List Nat) (F : List Item) : List Bytes → List Track → Prop
  | nil : IsTracks kinds F [] []
  | skip (i ids ts s c) (h : Is F i c s) (hc : c = 0x3a ∨ c = 0x39) (hr : IsTracks kinds F ids ts) : IsTracks kinds F (i :: ids) ts
  | cons (i ids t ts) (h : IsTrack kinds F i t) (hr : IsTracks kinds F ids ts) : IsTracks kinds F (i :: ids) (t :: ts)

/-- The set with the id `i` stands for a package. -/
def IsMob (kinds : List Nat) (F : List Item) (i : Bytes) (m : Mob) : Prop :=
  ∃ s u ids, Is F i (if m.master then 0x36 else 0x37) s ∧ (0x4401, u) ∈ s.tags ∧ m.id = mobId u ∧ (0x4403, refs ids) ∈ s.tags ∧ (∀ x ∈ ids, x.length = 16) ∧ ids.length < 2 ^ 32 ∧
    IsTracks kinds F ids m.tracks

/-- The packages of the content storage that the preface refers to. -/
def Describes (kinds : List Nat) (F : List Item) (ms : List Mob) : Prop :=
  ∃ p c s ids, p ∈ F ∧ p.key = key 0x2f ∧ (∀ q ∈ F, q.key = key 0x2f → q = p) ∧ (0x3b03, c) ∈ p.tags ∧ c.length = 16 ∧ Is F c 0x18 s ∧ (0x1901, refs ids) ∈ s.tags ∧ (∀ x ∈ ids, x.length = 16) ∧
    ids.length < 2 ^ 32 ∧ ids.length = ms.length ∧ ∀ k (h1 : k < ids.length) (h2 : k < ms.length), IsMob kinds F ids[k] ms[k]

/-- Mobs that come to those that are there: a mob with an id that is there already does not. -/
def added (there : List Bytes) : List Mob → List Mob
  | [] => []
  | m :: ms => if m.id ∈ there then added there ms else m :: added (m.id :: there) ms

/-! ## Files -/

/-- A packet of the header metadata: a set, a primer pack (local tags with their identifiers), or something that is neither a set nor a partition pack, like a fill item. -/
inductive Part where
  | set (s : Item)
  | primer (l : List (Nat × Bytes))
  | other (key value : Bytes)

/-- The keys of primer packs and of partition packs of closed and complete header partitions. -/
def primerLabel : Bytes := [0x06, 0x0e, 0x2b, 0x34, 0x02, 0x05, 0x01, 0x01, 0x0d, 0x01, 0x02, 0x01, 0x01, 0x05, 0x01, 0x00]
def headerLabel : Bytes := [0x06, 0x0e, 0x2b, 0x34, 0x02, 0x05, 0x01, 0x01, 0x0d, 0x01, 0x02, 0x01, 0x01, 0x02, 0x04, 0x00]

/-- Key and value of such a packet. -/
def Part.key : Part → Bytes
  | .set s => s.key
  | .primer _ => primerLabel
  | .other k _ => k
def Part.value : Part → Bytes
  | .set s => s.tags.flatMap fun x => beN 2 x.1 ++ beN 2 x.2.length ++ x.2
  | .primer l => beN 4 l.length ++ beN 4 18 ++ l.flatMap fun x => beN 2 x.1 ++ x.2
  | .other _ v => v

/-- A packet as it should be. -/
def Part.Good : Part → Prop
  | .set s => s.Good
  | .primer l => (∀ x ∈ l, x.1 < 65536 ∧ x.2.length = 16) ∧ l.length ≤ 65536
  | .other k _ => k.length = 16 ∧ k ≠ primerLabel ∧ k ≠ headerLabel ∧ k[5]? ≠ some 0x53

/-- The sets, and the entries of the primer packs. -/
def sets (l : List Part) : List Item := l.filterMap fun | .set s => some s | _ => none
def primers (l : List Part) : List (Nat × Bytes) := l.flatMap fun | .primer e => e | _ => []

/-- The identifiers of Avid's properties that are read wherever they are: frame sample size, resolution, application code; sub-descriptors, attributes of mobs and of tagged values. -/
def special : List Bytes :=
  [[0xa0, 0x24, 0x00, 0x60, 0x94, 0xeb, 0x75, 0xcb, 0xce, 0x2a, 0xca, 0x50, 0x51, 0xab, 0x11, 0xd3], [0xa0, 0x24, 0x00, 0x60, 0x94, 0xeb, 0x75, 0xcb, 0xce, 0x2a, 0xca, 0x4d, 0x51, 0xab, 0x11, 0xd3],
   [0xa0, 0x22, 0x00, 0x60, 0x94, 0xeb, 0x75, 0xcb, 0x96, 0xc4, 0x69, 0x92, 0x4f, 0x62, 0x11, 0xd3], [0x06, 0x0e, 0x2b, 0x34, 0x01, 0x01, 0x01, 0x09, 0x06, 0x01, 0x01, 0x04, 0x06, 0x10, 0x00, 0x00],
   [0xa0, 0x1c, 0x00, 0x04, 0xac, 0x96, 0x9f, 0x50, 0x60, 0x95, 0x81, 0x83, 0x47, 0xb1, 0x11, 0xd4], [0xa0, 0x1c, 0x00, 0x04, 0xac, 0x96, 0x9f, 0x50, 0x60, 0x95, 0x81, 0x85, 0x47, 0xb1, 0x11, 0xd4]]

/-- The header metadata: all packets are good, the sets have different instance ids, values of special properties have their first four bytes. -/
structure Header (l : List Part) : Prop where
  good : ∀ p ∈ l, p.Good
  differ : (sets l).Pairwise fun a b => ∀ i, (0x3c0a, i) ∈ a.tags → (0x3c0a, i) ∉ b.tags
  special : ∀ s ∈ sets l, ∀ t u v, (t, u) ∈ primers l → u ∈ special → (t, v) ∈ s.tags → 4 ≤ v.length

/-- The partition pack of the header: the alignment grid, the numbers of bytes of the metadata and of the index, the other numbers, the operational pattern and what comes after it. -/
structure Pack where
  major : Nat
  minor : Nat
  kag : Nat
  this : Nat
  previous : Nat
  footer : Nat
  headerBytes : Nat
  indexBytes : Nat
  indexSid : Nat
  offset : Nat
  bodySid : Nat
  pattern : Bytes
  more : Bytes

def Pack.value (h : Pack) : Bytes :=
  beN 2 h.major ++ beN 2 h.minor ++ beN 4 h.kag ++ beN 8 h.this ++ beN 8 h.previous ++ beN 8 h.footer ++ beN 8 h.headerBytes ++ beN 8 h.indexBytes ++ beN 4 h.indexSid ++ beN 8 h.offset ++
    beN 4 h.bodySid ++ h.pattern ++ h.more

/-- The numbers have their sizes, there is a grid, the pattern is OP-Atom (SMPTE 390). -/
structure Pack.Good (h : Pack) : Prop where
  short : h.major < 2 ^ 16 ∧ h.minor < 2 ^ 16 ∧ h.kag < 2 ^ 32 ∧ h.indexSid < 2 ^ 32 ∧ h.bodySid < 2 ^ 32
  long : h.this < 2 ^ 64 ∧ h.previous < 2 ^ 64 ∧ h.footer < 2 ^ 64 ∧ h.headerBytes < 2 ^ 64 ∧ h.indexBytes < 2 ^ 64 ∧ h.offset < 2 ^ 64
  grid : 0 < h.kag
  atom : ∃ v a b c, v ∈ [1, 2, 3] ∧ h.pattern = [0x06, 0x0e, 0x2b, 0x34, 0x04, 0x01, 0x01, v, 0x0d, 0x01, 0x02, 0x01, 0x10, a, b, c]

/-- How far the library reads: it moves a number that is not on the grid by a whole unit, and the key and the length of the partition pack are not in it. -/
def Pack.far (h : Pack) : Nat :=
  let up n := if h.kag ∣ n then n else n + h.kag
  up h.value.length + up h.headerBytes + up h.indexBytes

end Verif.Spec.Mxf
