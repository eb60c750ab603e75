import Verif.Model.Auid
/-!
# MobID (src/aaf2/mobid.py)

A `MobID` object holds `bytes_le`, a bytearray, 32 bytes long unless built from other bytes.
-/
namespace Verif.MobID

/-- `bytes_le[i] = v` on a bytearray: ValueError unless `0 <= v <= 255` (negative not modelled). (Used in `setLen`: mobid.py:220-222.) -/
def setByte (b : Bytes) (i : Nat) (v : Nat) : Res Bytes :=
  if v < 256 then .ok (splice b i [UInt8.ofNat v]) else .error .valueError

/-- `struct.pack_into('nB', b, off, *v)`: struct.error unless there are `n` values, each a byte. (Used in `setLabel`: mobid.py:212-214.) -/
def packBytes (b : Bytes) (n off : Nat) (v : List Nat) : Res Bytes :=
  if v.length = n ∧ ∀ x ∈ v, x < 256 then .ok (splice b off (v.map UInt8.ofNat)) else .error .structError

/-- `struct.pack_into('<I' or '<H', b, off, v)`. (Used in `setData1`: mobid.py:252-254.) -/
def packInt (b : Bytes) (n off : Nat) (v : Nat) : Res Bytes := do
  let x ← packLe n v
  return splice b off x

/-- `SMPTELabel`, mobid.py:208-210. -/
def label (b : Bytes) : Bytes := slice b 0 12
/-- `length`, mobid.py:216-218. -/
def len (b : Bytes) : Nat := (b.getD 12 0).toNat
/-- `instanceHigh`, mobid.py:224-226. -/
def instHigh (b : Bytes) : Nat := (b.getD 13 0).toNat
/-- `instanceMid`, mobid.py:232-234. -/
def instMid (b : Bytes) : Nat := (b.getD 14 0).toNat
/-- `instanceLow`, mobid.py:240-242. -/
def instLow (b : Bytes) : Nat := (b.getD 15 0).toNat
/-- `Data1`, mobid.py:248-250. -/
def data1 (b : Bytes) : Nat := unLe (slice b 16 20)
/-- `Data2`, mobid.py:256-258. -/
def data2 (b : Bytes) : Nat := unLe (slice b 20 22)
/-- `Data3`, mobid.py:264-266. -/
def data3 (b : Bytes) : Nat := unLe (slice b 22 24)
/-- `Data4`, mobid.py:272-274. -/
def data4 (b : Bytes) : Bytes := slice b 24 32
/-- `material`, mobid.py:197-202. -/
def material (b : Bytes) : Bytes := b.drop 16

/-- Setter of `SMPTELabel`, mobid.py:212-214. -/
def setLabel (b : Bytes) (v : List Nat) : Res Bytes := packBytes b 12 0 v
/-- Setter of `length`, mobid.py:220-222. -/
def setLen (b : Bytes) (v : Nat) : Res Bytes := setByte b 12 v
/-- Setter of `instanceHigh`, mobid.py:228-230. -/
def setInstHigh (b : Bytes) (v : Nat) : Res Bytes := setByte b 13 v
/-- Setter of `instanceMid`, mobid.py:236-238. -/
def setInstMid (b : Bytes) (v : Nat) : Res Bytes := setByte b 14 v
/-- Setter of `instanceLow`, mobid.py:244-246. -/
def setInstLow (b : Bytes) (v : Nat) : Res Bytes := setByte b 15 v
/-- Setter of `Data1`, mobid.py:252-254. -/
def setData1 (b : Bytes) (v : Nat) : Res Bytes := packInt b 4 16 v
/-- Setter of `Data2`, mobid.py:260-262. -/
def setData2 (b : Bytes) (v : Nat) : Res Bytes := packInt b 2 20 v
/-- Setter of `Data3`, mobid.py:268-270. -/
def setData3 (b : Bytes) (v : Nat) : Res Bytes := packInt b 2 22 v
/-- Setter of `Data4`, mobid.py:276-278. -/
def setData4 (b : Bytes) (v : List Nat) : Res Bytes := packBytes b 8 24 v
/-- `self.bytes_le[16:] = value.bytes_le`, mobid.py:204-206. -/
def setMaterial (b : Bytes) (v : Bytes) : Bytes := b.take 16 ++ v

/-- The dict exchanged by `to_dict`/`from_dict`; a missing key is `none`. (Used in `toDict`: mobid.py:298-315.) -/
structure Dict where
  length : Option Nat
  instanceHigh : Option Nat
  instanceMid : Option Nat
  instanceLow : Option Nat
  /-- `material`: Data1, Data2, Data3, Data4 -/
  material : Option (Option Nat × Option Nat × Option Nat × Option (List Nat))
  label : Option (List Nat)
  deriving DecidableEq

/-- `to_dict`, mobid.py:298-315. -/
def toDict (b : Bytes) : Dict where
  length := some (len b)
  instanceHigh := some (instHigh b)
  instanceMid := some (instMid b)
  instanceLow := some (instLow b)
  material := some (some (data1 b), some (data2 b), some (data3 b), some ((data4 b).map UInt8.toNat))
  label := some ((label b).map UInt8.toNat)

/-- `from_dict`, mobid.py:280-296. -/
def fromDict (b : Bytes) (d : Dict) : Res Bytes := do
  let b ← setLen b (d.length.getD 0)
  let b ← setInstHigh b (d.instanceHigh.getD 0)
  let b ← setInstMid b (d.instanceMid.getD 0)
  let b ← setInstLow b (d.instanceLow.getD 0)
  let m := d.material.getD (some 0, some 0, some 0, some (List.replicate 8 0))
  let b ← setData1 b (m.1.getD 0)
  let b ← setData2 b (m.2.1.getD 0)
  let b ← setData3 b (m.2.2.1.getD 0)
  let b ← setData4 b (m.2.2.2.getD (List.replicate 8 0))
  setLabel b (d.label.getD (List.replicate 12 0))

/-- `int` getter, mobid.py:316-321. -/
def int (b : Bytes) : Nat := unBe b
/-- `int` setter, mobid.py:323-326: `bytes_from_int(value, 32)` keeps the low 256 bits. -/
def ofInt (v : Nat) : Bytes := beN 32 v

/-- `__eq__`, mobid.py:331-334. -/
def eq (a b : Bytes) : Bool := a == b
/-- `__lt__`, mobid.py:336-339. -/
def lt (a b : Bytes) : Bool := int a < int b
/-- `__le__`, mobid.py:341-344. -/
def le (a b : Bytes) : Bool := int a ≤ int b
/-- `__gt__`, mobid.py:346-349. -/
def gt (a b : Bytes) : Bool := int a > int b
/-- `__ge__`, mobid.py:351-354. -/
def ge (a b : Bytes) : Bool := int a ≥ int b

/-- The six bytes marking a half swapped material number, mobid.py:371-373, 436-438. -/
def magic : Bytes := [0x06, 0x0E, 0x2B, 0x34, 0x7F, 0x7F]

/-- `"%02x%02x%02x%02x" % (b[i], .., b[i+3])`. (Used in `urn`: mobid.py:359-406.) -/
def hex4 (b : Bytes) (i : Nat) : Text := (slice b i (i + 4)).flatMap (fun x => fmtHex 2 x.toNat)

/-- The prefix `urn:smpte:umid:`. (Used in `urn`: mobid.py:359-406.) -/
def urnPrefix : Text := ['u', 'r', 'n', ':', 's', 'm', 'p', 't', 'e', ':', 'u', 'm', 'i', 'd', ':']

/-- `urn` getter, mobid.py:359-406. -/
def urn (b : Bytes) : Text :=
  let l := label b
  let d4 := data4 b
  let head := urnPrefix ++ hex4 l 0 ++ ['.'] ++ hex4 l 4 ++ ['.'] ++ hex4 l 8 ++ ['.'] ++
    fmtHex 2 (len b) ++ fmtHex 2 (instHigh b) ++ fmtHex 2 (instMid b) ++ fmtHex 2 (instLow b) ++ ['.']
  if l.getD 11 0 = 0x00 ∧ d4.getD 0 0 = 0x06 ∧ d4.getD 1 0 = 0x0E ∧ d4.getD 2 0 = 0x2B ∧ d4.getD 3 0 = 0x34 ∧
      d4.getD 4 0 = 0x7F ∧ d4.getD 5 0 = 0x7F then
    head ++ hex4 d4 0 ++ ['.'] ++ hex4 d4 4 ++ ['.'] ++ fmtHex 8 (data1 b) ++ ['.'] ++
      fmtHex 4 (data2 b) ++ fmtHex 4 (data3 b)
  else
    head ++ fmtHex 8 (data1 b) ++ ['.'] ++ fmtHex 4 (data2 b) ++ fmtHex 4 (data3 b) ++ ['.'] ++
      hex4 d4 0 ++ ['.'] ++ hex4 d4 4

/-- The loops `for i in range(n): v[i] = int(s[start:start+2], 16)`, mobid.py:416-420, 429-433, 442-446, 460-464 -/
def readHexBytes (s : Text) (start n : Nat) : Res (List Nat) :=
  (List.range n).mapM (fun i => parseHex (slice s (start + 2 * i) (start + 2 * i + 2)))

/-- `urn` setter, mobid.py:408-465, on a MobID whose current bytes are `b`.  `str.lower` is the ASCII one. -/
def setUrn (b : Bytes) (value : Text) : Res Bytes := do
  let s := value.map Char.toLower
  let s := removeAll ['0', 'x'] (removeAll ['-'] (removeAll ['.'] (removeAll urnPrefix s)))
  if s.length ≠ 64 then throw .assertion
  let lab ← readHexBytes s 0 12
  let b ← setLabel b lab
  let b ← setLen b (← parseHex (slice s 24 26))
  let b ← setInstHigh b (← parseHex (slice s 26 28))
  let b ← setInstMid b (← parseHex (slice s 28 30))
  let b ← setInstLow b (← parseHex (slice s 30 32))
  let data ← readHexBytes s 32 6
  if lab.getD 11 0 = 0x00 ∧ data.getD 0 0 = 0x06 ∧ data.getD 1 0 = 0x0E ∧ data.getD 2 0 = 0x2B ∧
      data.getD 3 0 = 0x34 ∧ data.getD 4 0 = 0x7F ∧ data.getD 5 0 = 0x7F then
    let d4 ← readHexBytes s 32 8
    let b ← setData4 b d4
    let b ← setData1 b (← parseHex (slice s 48 56))
    let b ← setData2 b (← parseHex (slice s 56 60))
    setData3 b (← parseHex (slice s 60 64))
  else
    let b ← setData1 b (← parseHex (slice s 32 40))
    let b ← setData2 b (← parseHex (slice s 40 44))
    let b ← setData3 b (← parseHex (slice s 44 48))
    let d4 ← readHexBytes s 48 8
    setData4 b d4

/-- `MobID(mobid=text)`, mobid.py:177-188. -/
def ofUrn (value : Text) : Res Bytes := setUrn (List.replicate 32 0) value

/-- `UniqueMobID` / `MobID.new()`, mobid.py:153-174; the random part is the parameter `uuid` (16 bytes). -/
def new (uuid : Bytes) : Res Bytes := do
  let b ← setLabel (List.replicate 32 0) [0x06, 0x0a, 0x2b, 0x34, 0x01, 0x01, 0x01, 0x05, 0x01, 0x01, 0x0f, 0x20]
  let b ← setLen b 0x13
  let b ← setInstHigh b 0
  let b ← setInstMid b 0
  let b ← setInstLow b 0
  return setMaterial b uuid

/-! ## Lemmas -/

theorem slice_flatMap_aux (b : Bytes) (i : Nat) : (hexBytes b).drop (2 * i) = hexBytes (b.drop i) := by
  induction i generalizing b with
  | zero => simp
  | succ i ih =>
    cases b with
    | nil => simp [hexBytes]
    | cons x b =>
      have : hexBytes (x :: b) = hexDigit (x.toNat / 16 % 16) :: hexDigit (x.toNat % 16) :: hexBytes b := by
        simp [hexBytes, hexN]
      rw [this, Nat.mul_add, Nat.mul_one]
      simp [ih]

theorem take_hexBytes (b : Bytes) (i : Nat) : (hexBytes b).take (2 * i) = hexBytes (b.take i) := by
  induction i generalizing b with
  | zero => simp [hexBytes]
  | succ i ih =>
    cases b with
    | nil => simp [hexBytes]
    | cons x b =>
      have : ∀ c, hexBytes (x :: c) = hexDigit (x.toNat / 16 % 16) :: hexDigit (x.toNat % 16) :: hexBytes c := by
        simp [hexBytes, hexN]
      rw [this, Nat.mul_add, Nat.mul_one]
      simp [ih, this]

theorem slice_hexBytes (b : Bytes) (i j : Nat) : slice (hexBytes b) (2 * i) (2 * j) = hexBytes (slice b i j) := by
  simp only [slice]
  rw [slice_flatMap_aux, ← Nat.mul_sub, take_hexBytes]

theorem parseHex_hexBytes {b : Bytes} (h : b ≠ []) : parseHex (hexBytes b) = .ok (unBe b) := by
  rw [← hexN_unBe]
  have hl : 0 < b.length := List.length_pos_iff.mpr h
  apply parseHex_hexN (by omega)
  have := unBe_lt b
  rw [Nat.pow_mul]
  exact this

theorem parse_slice (t : Bytes) (i j : Nat) (h : i < j) (hj : j ≤ t.length) :
    parseHex (slice (hexBytes t) (2 * i) (2 * j)) = .ok (unBe (slice t i j)) := by
  rw [slice_hexBytes, parseHex_hexBytes]
  intro h0
  have := congrArg List.length h0
  rw [slice_length _ _ _ hj] at this
  simp at this; omega

theorem unBe_singleton (x : UInt8) : unBe [x] = x.toNat := by simp [unBe, unLe]

theorem slice_one {α : Type} (t : List α) (i : Nat) (h : i < t.length) : slice t i (i + 1) = [t[i]] := by
  simp only [slice]
  rw [List.drop_eq_getElem_cons h, Nat.add_sub_cancel_left]
  rfl

theorem getElem_slice {α : Type} (t : List α) (i j k : Nat) (h : k < (slice t i j).length) (h2 : i + k < t.length) :
    (slice t i j)[k] = t[i + k] := by
  simp [slice]

theorem mapM_ok_of_forall {α β : Type} (l : List α) (f : α → Res β) (g : α → β) (h : ∀ x ∈ l, f x = .ok (g x)) :
    l.mapM f = .ok (l.map g) := by
  induction l with
  | nil => rfl
  | cons x l ih =>
    rw [List.mapM_cons, h x (by simp), ih (fun y hy => h y (by simp [hy]))]
    rfl

theorem readHexBytes_hexBytes (t : Bytes) (s n : Nat) (h : s + n ≤ t.length) :
    readHexBytes (hexBytes t) (2 * s) n = .ok ((slice t s (s + n)).map UInt8.toNat) := by
  simp only [readHexBytes]
  rw [mapM_ok_of_forall (g := fun i => (t.getD (s + i) 0).toNat)]
  · congr 1
    apply List.ext_getElem
    · simp [slice_length _ _ _ h]
    · intro k h1 h2
      simp at h1
      simp only [List.getElem_map, List.getElem_range]
      rw [getElem_slice _ _ _ _ _ (by omega), List.getD_eq_getElem?_getD, List.getElem?_eq_getElem (by omega)]
      rfl
  · intro i hi
    simp at hi
    have e1 : 2 * s + 2 * i = 2 * (s + i) := by omega
    have e2 : 2 * s + 2 * i + 2 = 2 * (s + i + 1) := by omega
    rw [e2, e1, parse_slice _ _ _ (by omega) (by omega), slice_one _ _ (by omega), unBe_singleton,
      List.getD_eq_getElem?_getD, List.getElem?_eq_getElem (by omega)]
    rfl

theorem packBytes_map (b : Bytes) (n off : Nat) (v : Bytes) (h : v.length = n) :
    packBytes b n off (v.map UInt8.toNat) = .ok (splice b off v) := by
  simp only [packBytes]
  rw [if_pos]
  · congr 2
    rw [List.map_map]
    conv => rhs; rw [← List.map_id v]
    apply List.map_congr_left; intro x _; simp
  · refine ⟨by simpa using h, ?_⟩
    intro x hx
    simp at hx
    obtain ⟨y, _, rfl⟩ := hx
    exact y.toNat_lt

theorem setByte_toNat (b : Bytes) (i : Nat) (x : UInt8) : setByte b i x.toNat = .ok (splice b i [x]) := by
  simp [setByte, x.toNat_lt]

theorem packInt_unBe (b : Bytes) (n off : Nat) (v : Bytes) (h : v.length = n) :
    packInt b n off (unBe v) = .ok (splice b off v.reverse) := by
  have : unBe v < 256 ^ n := by rw [← h]; exact unBe_lt v
  simp only [packInt, packLe_ok this]
  have e : leN n (unBe v) = v.reverse := by
    have := leN_unLe v.reverse
    simp only [List.length_reverse, h] at this
    exact this
  rw [e]; rfl

theorem packInt_unLe (b : Bytes) (n off : Nat) (v : Bytes) (h : v.length = n) :
    packInt b n off (unLe v) = .ok (splice b off v) := by
  have := packInt_unBe b n off v.reverse (by simpa using h)
  simpa [unBe] using this

theorem exists32 {b : Bytes} (h : b.length = 32) : ∃ x0 x1 x2 x3 x4 x5 x6 x7 x8 x9 x10 x11 x12 x13 x14 x15
    y0 y1 y2 y3 y4 y5 y6 y7 y8 y9 y10 y11 y12 y13 y14 y15 : UInt8,
    b = [x0, x1, x2, x3, x4, x5, x6, x7, x8, x9, x10, x11, x12, x13, x14, x15,
         y0, y1, y2, y3, y4, y5, y6, y7, y8, y9, y10, y11, y12, y13, y14, y15] := by
  match b, h with
  | [x0, x1, x2, x3, x4, x5, x6, x7, x8, x9, x10, x11, x12, x13, x14, x15,
     y0, y1, y2, y3, y4, y5, y6, y7, y8, y9, y10, y11, y12, y13, y14, y15], _ =>
    exact ⟨x0, x1, x2, x3, x4, x5, x6, x7, x8, x9, x10, x11, x12, x13, x14, x15,
     y0, y1, y2, y3, y4, y5, y6, y7, y8, y9, y10, y11, y12, y13, y14, y15, rfl⟩

/-- Writing all ten fields of a 32-byte record replaces the record. -/
theorem splice_all (b l d4 d1 d2 d3 : Bytes) (a0 a1 a2 a3 : UInt8) (hb : b.length = 32) (hl : l.length = 12)
    (h4 : d4.length = 8) (h1 : d1.length = 4) (h2 : d2.length = 2) (h3 : d3.length = 2) :
    let b' := splice (splice (splice (splice (splice b 0 l) 12 [a0]) 13 [a1]) 14 [a2]) 15 [a3]
    splice (splice (splice (splice b' 24 d4) 16 d1) 20 d2) 22 d3 = l ++ [a0, a1, a2, a3] ++ d1 ++ d2 ++ d3 ++ d4 ∧
    splice (splice (splice (splice b' 16 d1) 20 d2) 22 d3) 24 d4 = l ++ [a0, a1, a2, a3] ++ d1 ++ d2 ++ d3 ++ d4 := by
  obtain ⟨_, _, _, _, _, _, _, _, _, _, _, _, _, _, _, _, _, _, _, _, _, _, _, _, _, _, _, _, _, _, _, _, rfl⟩ := exists32 hb
  match l, hl, d4, h4, d1, h1, d2, h2, d3, h3 with
  | [_, _, _, _, _, _, _, _, _, _, _, _], _, [_, _, _, _, _, _, _, _], _, [_, _, _, _], _, [_, _], _, [_, _], _ =>
    simp only [splice, List.length_cons, List.length_nil, Nat.zero_add, Nat.reduceAdd, List.take_succ_cons,
      List.take_zero, List.drop_succ_cons, List.drop_zero, List.cons_append, List.nil_append, and_self]

theorem toNat_eq_iff (x : UInt8) (n : Nat) (hn : n < 256) : x.toNat = n ↔ x = UInt8.ofNat n := by
  constructor
  · intro h; rw [← h]; simp
  · intro h; rw [h]; simp; omega

/-- What the URN setter does with the 32 bytes spelled by the text. (Made of `magic` mobid.py:371-373, 436-438.) -/
def decodeUrn (t : Bytes) : Bytes :=
  if t.getD 11 0 = 0 ∧ slice t 16 22 = magic then
    t.take 16 ++ (slice t 24 28).reverse ++ (slice t 28 30).reverse ++ (slice t 30 32).reverse ++ slice t 16 24
  else
    t.take 16 ++ (slice t 16 20).reverse ++ (slice t 20 22).reverse ++ (slice t 22 24).reverse ++ slice t 24 32

theorem setUrn_spec (b t : Bytes) (s : Text) (hb : b.length = 32) (ht : t.length = 32)
    (hs : removeAll ['0', 'x'] (removeAll ['-'] (removeAll ['.'] (removeAll urnPrefix (s.map Char.toLower)))) = hexBytes t) :
    setUrn b s = .ok (decodeUrn t) := by
  have hlen : (hexBytes t).length = 64 := by rw [hexBytes_length, ht]
  have r0 := readHexBytes_hexBytes t 0 12 (by omega)
  have r1 := readHexBytes_hexBytes t 16 6 (by omega)
  have r2 := readHexBytes_hexBytes t 16 8 (by omega)
  have r3 := readHexBytes_hexBytes t 24 8 (by omega)
  have p12 := parse_slice t 12 13 (by omega) (by omega)
  have p13 := parse_slice t 13 14 (by omega) (by omega)
  have p14 := parse_slice t 14 15 (by omega) (by omega)
  have p15 := parse_slice t 15 16 (by omega) (by omega)
  have p16 := parse_slice t 16 20 (by omega) (by omega)
  have p20 := parse_slice t 20 22 (by omega) (by omega)
  have p22 := parse_slice t 22 24 (by omega) (by omega)
  have p24 := parse_slice t 24 28 (by omega) (by omega)
  have p28 := parse_slice t 28 30 (by omega) (by omega)
  have p30 := parse_slice t 30 32 (by omega) (by omega)
  simp only [Nat.reduceMul, Nat.reduceAdd, Nat.mul_zero, Nat.zero_add] at *
  simp only [setUrn, hs, hlen, r0, r1, r2, r3, p12, p13, p14, p15, p16, p20, p22, p24, p28, p30]
  clear r0 r1 r2 r3 p12 p13 p14 p15 p16 p20 p22 p24 p28 p30 hs hlen
  obtain ⟨x0, x1, x2, x3, x4, x5, x6, x7, x8, x9, x10, x11, x12, x13, x14, x15,
    y0, y1, y2, y3, y4, y5, y6, y7, y8, y9, y10, y11, y12, y13, y14, y15, rfl⟩ := exists32 ht
  have sa := splice_all b [x0, x1, x2, x3, x4, x5, x6, x7, x8, x9, x10, x11] [y8, y9, y10, y11, y12, y13, y14, y15]
    [y3, y2, y1, y0] [y5, y4] [y7, y6] x12 x13 x14 x15 hb rfl rfl rfl rfl rfl
  have sb := splice_all b [x0, x1, x2, x3, x4, x5, x6, x7, x8, x9, x10, x11] [y0, y1, y2, y3, y4, y5, y6, y7]
    [y11, y10, y9, y8] [y13, y12] [y15, y14] x12 x13 x14 x15 hb rfl rfl rfl rfl rfl
  have e1 := packInt_unBe (n := 4) (v := [y0, y1, y2, y3]) (h := rfl)
  have e2 := packInt_unBe (n := 2) (v := [y4, y5]) (h := rfl)
  have e3 := packInt_unBe (n := 2) (v := [y6, y7]) (h := rfl)
  have e4 := packInt_unBe (n := 4) (v := [y8, y9, y10, y11]) (h := rfl)
  have e5 := packInt_unBe (n := 2) (v := [y12, y13]) (h := rfl)
  have e6 := packInt_unBe (n := 2) (v := [y14, y15]) (h := rfl)
  have f1 := packBytes_map (n := 12) (v := [x0, x1, x2, x3, x4, x5, x6, x7, x8, x9, x10, x11]) (h := rfl)
  have f2 := packBytes_map (n := 8) (v := [y0, y1, y2, y3, y4, y5, y6, y7]) (h := rfl)
  have f3 := packBytes_map (n := 8) (v := [y8, y9, y10, y11, y12, y13, y14, y15]) (h := rfl)
  simp only [List.map_cons, List.map_nil, List.reverse_cons, List.reverse_nil, List.nil_append, List.cons_append] at e1 e2 e3 e4 e5 e6 f1 f2 f3
  simp only [slice, Nat.reduceSub, List.drop_succ_cons, List.drop_zero, List.take_succ_cons, List.take_zero,
    List.map_cons, List.map_nil, unBe_singleton, setLabel, setLen, setInstHigh, setInstMid, setInstLow,
    setData1, setData2, setData3, setData4, setByte_toNat, e1, e2, e3, e4, e5, e6, f1, f2, f3, bind, Except.bind, ne_eq,
    not_true_eq_false, if_false, List.getD_cons_zero, List.getD_cons_succ]
  simp only [decodeUrn, magic, slice, Nat.reduceSub, List.drop_succ_cons, List.drop_zero, List.take_succ_cons, List.take_zero,
    List.getD_cons_zero, List.getD_cons_succ, List.cons.injEq, and_true]
  have c : ∀ (x : UInt8) (n : Nat), n < 256 → (x.toNat = n ↔ x = UInt8.ofNat n) := toNat_eq_iff
  have hc : (x11.toNat = 0 ∧ y0.toNat = 6 ∧ y1.toNat = 14 ∧ y2.toNat = 43 ∧ y3.toNat = 52 ∧ y4.toNat = 127 ∧ y5.toNat = 127) ↔
      (x11 = 0 ∧ y0 = 6 ∧ y1 = 14 ∧ y2 = 43 ∧ y3 = 52 ∧ y4 = 127 ∧ y5 = 127) := by
    rw [c _ 0 (by omega), c _ 6 (by omega), c _ 14 (by omega), c _ 43 (by omega), c _ 52 (by omega), c _ 127 (by omega), c _ 127 (by omega)]
    rfl
  by_cases h : (x11 = 0 ∧ y0 = 6 ∧ y1 = 14 ∧ y2 = 43 ∧ y3 = 52 ∧ y4 = 127 ∧ y5 = 127)
  · rw [if_pos (hc.mpr h), if_pos h]
    exact congrArg Except.ok sb.1
  · rw [if_neg (fun hh => h (hc.mp hh)), if_neg h]
    exact congrArg Except.ok sa.2

end Verif.MobID
