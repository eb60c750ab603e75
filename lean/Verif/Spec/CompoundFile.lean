import Verif.Spec.DirRecord
import Verif.Spec.Volume
/-!
# Specification: a compound file as bytes

The format of [MS-CFB], read as a description of the bytes of a file: a header, the FAT and the table of
its sectors (DIFAT), the mini FAT, chains of sectors, 128-byte directory records linked to one search
tree per storage, and the data of the streams.  Nothing here refers to the program; `Desc` says what is
where, and `Stores` when a file has exactly that and which tree of paths and byte arrays it stands for.

What is fixed here although the format says otherwise, or leaves it open:
* a start sector that is not there is `0xFFFFFFFF` in the directory; the format has `0xFFFFFFFE` for
  empty streams and for files without small streams, which `Shown` allows as well (files that the program
  reads but cannot edit, see `C51_empty_counterexample`);
* every sector that is not free is used by something;
* names are ordered by the number of their characters, not of their UTF-16 units (the same for names in
  the basic plane).
-/
namespace Verif.Compound
open Verif.DirRec (Rec)
open Verif.PathTree (Name Path)
open Verif.Volume (AVol)

/-- A sector that is not used; also the link to no entry. -/
def none32 : Nat := 0xFFFFFFFF
/-- The end of a chain. -/
def endMark : Nat := 0xFFFFFFFE
/-- A sector of the FAT. -/
def fatMark : Nat := 0xFFFFFFFD
/-- A sector of the DIFAT. -/
def difatMark : Nat := 0xFFFFFFFC
/-- Sector numbers are smaller than this. -/
def maxSector : Nat := 0xFFFFFFFA
/-- The sector that contains the range lock at 2 GB, with sectors of 4096 bytes. -/
def lockSector : Nat := 0x7FFFFF00 / 4096 - 1

/-- The file has the bytes `b` at `pos`. -/
def BytesAt (g : Bytes) (pos : Nat) (b : Bytes) : Prop := (g.drop pos).take b.length = b

/-- Numbers of 32 bits. -/
def words (l : List Nat) : Bytes := l.flatMap (leN 4)

/-- The sectors `l` are a chain: each has the number of the next in the table, the last one the end mark. -/
def Chained (fat : List Nat) : List Nat → Prop
  | [] => True
  | [x] => fat[x]? = some endMark
  | x :: y :: r => fat[x]? = some y ∧ Chained fat (y :: r)

/-- What chains of sectors are used for. -/
inductive Part where
  | dir | mini | minifat
  | data (id : Nat)

/-- The entries of a storage as a search tree. -/
inductive Sib where
  | nil
  | node (l : Sib) (id : Nat) (r : Sib)

/-- The entries in order. -/
def Sib.ids : Sib → List Nat
  | .nil => []
  | .node l i r => l.ids ++ i :: r.ids

/-- What is where in a file. -/
structure Desc where
  ss : Nat
  classId : Bytes
  minor : Nat
  major : Nat
  trans : Nat
  dirCount : Nat
  /-- the sectors of the FAT and of the DIFAT -/
  fatSecs : List Nat
  difatSecs : List Nat
  /-- what stands for the first DIFAT sector, the DIFAT sector after the last one, and the first sector
  of the mini FAT if there is none -/
  noDifat : Nat
  endDifat : Nat
  noMinifat : Nat
  fat : List Nat
  minifat : List Nat
  chain : Part → List Nat
  /-- the mini sectors of each stream -/
  small : Nat → List Nat
  recs : Nat → Rec
  tree : Nat → Sib
  name : Nat → Name

namespace Desc
variable (d : Desc)

/-- Entries per sector of a table. -/
def per : Nat := d.ss / 4

/-- The places for numbers of FAT sectors: 109 in the header, and all but the last one of each DIFAT sector. -/
def slots : List Nat :=
  d.fatSecs ++ List.replicate (109 + d.difatSecs.length * (d.per - 1) - d.fatSecs.length) none32

/-- The header. -/
def header : Bytes :=
  [0xd0, 0xcf, 0x11, 0xe0, 0xa1, 0xb1, 0x1a, 0xe1] ++ d.classId ++ leN 2 d.minor ++ leN 2 d.major ++
  leN 2 0xFFFE ++ leN 2 (if d.ss = 512 then 9 else 12) ++ leN 2 6 ++ [0, 0, 0, 0, 0, 0] ++
  words [d.dirCount, d.fatSecs.length, (d.chain .dir).headD 0, d.trans, 4096,
    (d.chain .minifat).headD d.noMinifat, (d.chain .minifat).length,
    d.difatSecs.headD d.noDifat, d.difatSecs.length] ++
  words (d.slots.take 109) ++ List.replicate (d.ss - 512) 0

/-- The number of directory records. -/
def count : Nat := (d.chain .dir).length * (d.ss / 128)

/-- The type of an entry: 0 is not used, 1 a storage, 2 a stream, 5 the root storage. -/
def typ (id : Nat) : UInt8 := if id < d.count then (d.recs id).typ else 0

/-- The place of a directory record. -/
def recPos (id : Nat) : Nat := ((d.chain .dir).getD (id * 128 / d.ss) 0 + 1) * d.ss + id * 128 % d.ss

end Desc

/-! ## The directory -/

/-- UTF-16, little endian. -/
def utf16 (m : Name) : Bytes := m.flatMap fun c =>
  if c.toNat < 0x10000 then leN 2 c.toNat
  else leN 2 (0xD800 + (c.toNat - 0x10000) / 0x400) ++ leN 2 (0xDC00 + (c.toNat - 0x10000) % 0x400)

/-- The record has the name `m`: its bytes, a zero at the end, and the number of all these bytes.  (The format
has room for 31 units and the zero; a name of 32 units has no zero.) -/
structure Named (r : Rec) (m : Name) : Prop where
  fits : (utf16 m).length ≤ 64
  size : r.nameSize = min ((utf16 m).length + 2) 64
  bytes : r.name.take r.nameSize = (utf16 m ++ [0, 0]).take 64
  nul : Char.ofNat 0 ∉ m

/-- The links from `v` make the tree. -/
def Linked (recs : Nat → Rec) : Nat → Sib → Prop
  | v, .nil => v = none32
  | v, .node l i r => v = i ∧ Linked recs (recs i).left l ∧ Linked recs (recs i).right r

/-- The order of names: shorter names first, then by upper case form. -/
def Before (up : Name → Name) (a b : Name) : Prop :=
  a.length < b.length ∨ a.length = b.length ∧ List.lex (up a) (up b) (· < ·) = true

/-- The tree that starts with `i` has a black root. -/
def BlackRoot (recs : Nat → Rec) : Sib → Prop
  | .nil => True
  | .node _ i _ => (recs i).color = 1

/-- No red node has a red child. -/
def NoTwoRed (recs : Nat → Rec) : Sib → Prop
  | .nil => True
  | .node l i r => NoTwoRed recs l ∧ NoTwoRed recs r ∧ ((recs i).color ≠ 1 → BlackRoot recs l ∧ BlackRoot recs r)

/-- Each way down has `n` black nodes. -/
def Blacks (recs : Nat → Rec) : Sib → Nat → Prop
  | .nil, n => n = 0
  | .node l i r, n => ∃ m, n = m + (if (recs i).color = 1 then 1 else 0) ∧ Blacks recs l m ∧ Blacks recs r m

/-- A red-black tree.  (The format does not ask for the same number of black nodes on all ways.) -/
structure RedBlack (recs : Nat → Rec) (t : Sib) : Prop where
  root : BlackRoot recs t
  red : NoTwoRed recs t
  even : ∃ n, Blacks recs t n

/-- The entry at a path. -/
inductive Desc.Lies (d : Desc) : Path → Nat → Prop where
  | root : d.Lies [] 0
  | kid {p i e} (h : d.Lies p i) (he : e ∈ (d.tree i).ids) : d.Lies (p ++ [d.name e]) e

/-! ## Data -/

/-- The bytes of a sector. -/
def sectorBytes (g : Bytes) (ss x : Nat) : Bytes := (g.drop ((x + 1) * ss)).take ss

/-- The bytes of a chain. -/
def chainBytes (g : Bytes) (ss : Nat) (l : List Nat) : Bytes := l.flatMap (sectorBytes g ss)

/-- The bytes of a chain of mini sectors of a mini stream. -/
def smallBytes (mini : Bytes) (l : List Nat) : Bytes := l.flatMap fun k => (mini.drop (k * 64)).take 64

/-- The bytes of a stream. -/
def Desc.content (d : Desc) (g : Bytes) (id : Nat) : Bytes :=
  if d.typ id ≠ 2 then []
  else if (d.recs id).size < 4096 then
    (smallBytes (chainBytes g d.ss (d.chain .mini)) (d.small id)).take (d.recs id).size
  else (chainBytes g d.ss (d.chain (.data id))).take (d.recs id).size

/-! ## Files -/

/-- Header, tables and sectors. -/
structure Layout (g : Bytes) (d : Desc) : Prop where
  ss : d.ss = 512 ∨ d.ss = 4096
  fields : d.classId.length = 16 ∧ d.minor < 2 ^ 16 ∧ d.major < 2 ^ 16 ∧ d.trans < 2 ^ 32 ∧ d.dirCount < 2 ^ 32
  marks : d.noDifat < 2 ^ 32 ∧ (d.endDifat = none32 ∨ d.endDifat = endMark) ∧
    (d.noMinifat = none32 ∨ d.noMinifat = endMark)
  header : BytesAt g 0 d.header
  /-- the DIFAT: the places that are not in the header, and the next DIFAT sector -/
  room : d.fatSecs.length ≤ 109 + d.difatSecs.length * (d.per - 1)
  difat : ∀ (k x : Nat), d.difatSecs[k]? = some x → BytesAt g ((x + 1) * d.ss)
    (words ((d.slots.drop (109 + k * (d.per - 1))).take (d.per - 1) ++ [d.difatSecs.getD (k + 1) d.endDifat]))
  /-- the FAT in its sectors -/
  fatLen : d.fat.length = d.fatSecs.length * d.per
  fatMax : d.fat.length ≤ maxSector
  fat : ∀ (k x : Nat), d.fatSecs[k]? = some x → BytesAt g ((x + 1) * d.ss) (words ((d.fat.drop (k * d.per)).take d.per))
  /-- the mini FAT in its sectors -/
  miniLen : d.minifat.length = (d.chain .minifat).length * d.per
  miniMax : d.minifat.length ≤ maxSector
  minifat : ∀ (k x : Nat), (d.chain .minifat)[k]? = some x →
    BytesAt g ((x + 1) * d.ss) (words ((d.minifat.drop (k * d.per)).take d.per))
  /-- each sector has one use -/
  fatMarks : ∀ x ∈ d.fatSecs, d.fat[x]? = some fatMark
  difatMarks : ∀ x ∈ d.difatSecs, d.fat[x]? = some difatMark
  fatOnce : d.fatSecs.Nodup
  difatOnce : d.difatSecs.Nodup
  chained : ∀ p, Chained d.fat (d.chain p)
  once : ∀ p q x, x ∈ d.chain p → x ∈ d.chain q → p = q
  used : ∀ x < d.fat.length, d.fat[x]? = some none32 ∨ x ∈ d.fatSecs ∨ x ∈ d.difatSecs ∨ (∃ p, x ∈ d.chain p) ∨
    x = lockSector ∧ d.ss = 4096 ∧ d.fat[x]? = some endMark
  lock : d.ss = 4096 → lockSector ∉ d.fatSecs ∧ lockSector ∉ d.difatSecs ∧ ∀ p, lockSector ∉ d.chain p
  /-- sectors of chains are in the file -/
  inside : ∀ p, ∀ x ∈ d.chain p, (x + 2) * d.ss ≤ g.length
  /-- each mini sector has one use -/
  smalls : ∀ id, Chained d.minifat (d.small id)
  smallOnce : ∀ i j x, x ∈ d.small i → x ∈ d.small j → i = j
  smallUsed : ∀ x < d.minifat.length, d.minifat[x]? = some none32 ∨ ∃ id, x ∈ d.small id
  /-- mini sectors that are used are in the mini stream -/
  smallIn : ∀ id, ∀ x ∈ d.small id, x < (d.chain .mini).length * (d.ss / 64)
  cover : (d.chain .mini).length * (d.ss / 64) ≤ d.minifat.length
  dirs : d.chain .dir ≠ []

/-- The directory records. -/
structure Entries (up : Name → Name) (g : Bytes) (d : Desc) : Prop where
  wf : ∀ id < d.count, (d.recs id).Wf
  at_ : ∀ id < d.count, BytesAt g (d.recPos id) (d.recs id).bytes
  kinds : ∀ id, id ≠ 0 → d.typ id = 0 ∨ d.typ id = 1 ∨ d.typ id = 2
  root : d.typ 0 = 5 ∧ d.name 0 = ['R', 'o', 'o', 't', ' ', 'E', 'n', 't', 'r', 'y']
  names : ∀ id, d.typ id ≠ 0 → Named (d.recs id) (d.name id)
  /-- storages have trees -/
  trees : ∀ id, d.typ id = 1 ∨ d.typ id = 5 → Linked d.recs (d.recs id).child (d.tree id)
  leaves : ∀ id, d.typ id = 2 → (d.recs id).child = none32
  bare : ∀ id, d.typ id ≠ 1 → d.typ id ≠ 5 → d.tree id = .nil
  order : ∀ i, (d.tree i).ids.Pairwise fun a b => Before up (d.name a) (d.name b)
  black : ∀ i, BlackRoot d.recs (d.tree i)
  /-- an entry is in one storage only, and all entries can be reached -/
  kids : ∀ i, ∀ e ∈ (d.tree i).ids, e ≠ 0 ∧ e ≠ none32 ∧ d.typ e ≠ 0
  one : ∀ i j e, e ∈ (d.tree i).ids → e ∈ (d.tree j).ids → i = j
  reach : ∀ e, d.typ e ≠ 0 → ∃ p, d.Lies p e

/-- The start and size of what the records describe; `st v l` is that `v` is the start of the chain `l`.
Streams of less than 4096 bytes are in mini sectors. -/
structure Starts (st : Nat → List Nat → Prop) (d : Desc) : Prop where
  mini : st (d.recs 0).sector (d.chain .mini)
  smallStart : ∀ id, d.typ id = 2 → (d.recs id).size < 4096 → d.chain (.data id) = [] ∧
    st (d.recs id).sector (d.small id) ∧ (d.recs id).size ≤ (d.small id).length * 64
  bigStart : ∀ id, d.typ id = 2 → 4096 ≤ (d.recs id).size → d.small id = [] ∧
    st (d.recs id).sector (d.chain (.data id)) ∧
    (d.recs id).size ≤ (d.chain (.data id)).length * d.ss
  noData : ∀ id, d.typ id ≠ 2 → d.chain (.data id) = [] ∧ d.small id = []

/-- The first sector of a chain, `0xFFFFFFFF` if there is none. -/
def First (v : Nat) (l : List Nat) : Prop := v = l.headD none32

/-- The first sector of a chain, `0xFFFFFFFF` or `0xFFFFFFFE` if there is none. -/
def FirstOrEnd (v : Nat) (l : List Nat) : Prop := v = l.headD none32 ∨ l = [] ∧ v = endMark

/-- The directory: records and starts. -/
structure Directory (up : Name → Name) (g : Bytes) (d : Desc) : Prop extends Entries up g d, Starts First d

/-- The tree of paths and byte arrays of a description. -/
structure Content (g : Bytes) (d : Desc) (A : AVol) : Prop where
  tree : ∀ p b e, A.tree p = some (b, e) ↔ d.Lies p e ∧ b = decide (d.typ e ≠ 2)
  str : ∀ e, A.str e = (d.content g e, 0)
  stamp : ∀ e, d.typ e ≠ 0 → A.stamp e = (d.recs e).cls ++ (leN 4 (d.recs e).flags ++
    (leN 8 (d.recs e).ctime ++ leN 8 (d.recs e).mtime))

/-- **The file `g` is a compound file that stores `A`**, described by `d`. -/
structure Stores (up : Name → Name) (g : Bytes) (d : Desc) (A : AVol) : Prop extends Content g d A where
  layout : Layout g d
  dir : Directory up g d

/-- The same, with either of the marks where a chain that is not there starts. -/
structure Shown (up : Name → Name) (g : Bytes) (d : Desc) (A : AVol) : Prop extends Content g d A where
  layout : Layout g d
  entries : Entries up g d
  starts : Starts FirstOrEnd d

end Verif.Compound
