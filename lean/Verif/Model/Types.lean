import Verif.Model.Utf16
/-!
# Type definitions: encoding and decoding of property values (src/aaf2/types.py, src/aaf2/rational.py)

`Ty` is the universe of data types (references and streams hold objects and are modelled elsewhere).
Simplification: a type refers to its component types directly, while the code looks them up by id or by
name in the meta dictionary; special records (`MobIDType`, `AUID`, `Rational`, `DateStruct`, `TimeStruct`,
`TimeStamp`), recognised in the code by their id, are separate constructors.
-/
namespace Verif.Types
open Verif.Utf16 (Str)

mutual
/-- Used in `size`: types.py:106, 246, 343, 617. -/
inductive Ty where
  /-- `TypeDefInt` -/
  | int (size : Nat) (signed : Bool)
  /-- the `Boolean` enumeration -/
  | bool
  /-- `TypeDefEnum` over an integer type; the `elements` dict in iteration order -/
  | enum (size : Nat) (signed : Bool) (elements : List (Int × Str))
  /-- `TypeDefExtEnum`; the `elements` dict in iteration order -/
  | extEnum (elements : List (Bytes × Str))
  /-- `TypeDefFixedArray` -/
  | fixed (elem : Ty) (count : Nat)
  /-- `TypeDefVarArray` of anything but characters -/
  | var (elem : Ty)
  /-- `TypeDefVarArray` of the character type; `named` tells if that type is named "Character" -/
  | strArray (named : Bool)
  /-- `TypeDefSet` -/
  | set (elem : Ty)
  /-- `TypeDefString` -/
  | str
  /-- `TypeDefRecord` -/
  | record (fields : Fields)
  | mobid
  | auid
  | rational
  | date
  | time
  | stamp
  /-- `TypeDefRename` -/
  | rename (t : Ty)
/-- Used in `Ty`: types.py:106, 246, 343, 617. -/
inductive Fields where
  | nil
  | cons (name : Str) (t : Ty) (rest : Fields)
end

/-- Python values. (Used in `encDate`: types.py:712-718, 734-739.) -/
inductive Val where
  | int (i : Int)
  | bool (b : Bool)
  | text (s : Str)
  | auid (b : Bytes)
  | mobid (b : Bytes)
  /-- `AAFRational` -/
  | rat (n d : Int)
  | date (y : Int) (m d : Int)
  | time (h m s us : Int)
  | datetime (y m d h mi s us : Int)
  | list (l : List Val)
  | set (l : List Val)
  | dict (l : List (Str × Val))

/-! ## Integers, types.py:80-133 -/

/-- The sizes `pack_format` knows, types.py:109-125. -/
def intSizeOk (size : Nat) : Bool := size = 1 ∨ size = 2 ∨ size = 4 ∨ size = 8

/-- `struct` range check. (Used in `encInt`: types.py:132-133.) -/
def inRange (size : Nat) (signed : Bool) (i : Int) : Bool :=
  if signed then -(2 : Int) ^ (8 * size - 1) ≤ i ∧ i < (2 : Int) ^ (8 * size - 1)
  else 0 ≤ i ∧ i < (2 : Int) ^ (8 * size)

/-- `TypeDefInt.encode`, types.py:132-133. -/
def encInt (size : Nat) (signed : Bool) (i : Int) : Res Bytes :=
  if ¬ intSizeOk size then .error .propertyError
  else if inRange size signed i then .ok (leN size (i % (256 : Int) ^ size).toNat)
  else .error .structError

/-- Two's complement reading of `struct.unpack`. (Used in `decInt`: types.py:127-130.) -/
def unpackInt (size : Nat) (signed : Bool) (b : Bytes) : Int :=
  let u := unLe b
  if signed ∧ 2 ^ (8 * size - 1) ≤ u then (u : Int) - (2 : Int) ^ (8 * size) else u

/-- `TypeDefInt.decode`, types.py:127-130. -/
def decInt (size : Nat) (signed : Bool) (b : Bytes) : Res Int :=
  if b.length ≠ size then .error .assertion
  else if ¬ intSizeOk size then .error .propertyError
  else .ok (unpackInt size signed b)

/-- `unpack('<nX', data)` of an integer array: the data must have exactly the size of `n` items. (Made of `intSizeOk` types.py:109-125, `unpackInt` types.py:127-130, `size` types.py:106, 246, 343, 617.) -/
def decInts (size : Nat) (signed : Bool) (b : Bytes) : Res (List Int) :=
  if ¬ intSizeOk size then .error .propertyError
  else if b.length % size ≠ 0 then .error .structError
  else .ok ((List.range (b.length / size)).map fun i => unpackInt size signed (slice b (i * size) ((i + 1) * size)))

/-! ## Rational, rational.py:24-111 (integer and Rational arguments only; float, Decimal and text
arguments are not modelled) -/

/-- `AAFRational(n, d)` for integers. (Made of `Val` types.py:712-718, 734-739.) -/
def mkRational (n d : Int) : Res Val :=
  if d = 0 then
    if n = 0 then .ok (.rat 0 1) else .error .zeroDivision
  else .ok (.rat n d)

/-- `AAFRational(v)` for a Rational instance. (Made of `Val` types.py:712-718, 734-739.) -/
def asRational : Val → Res (Int × Int)
  | .rat n d => .ok (n, d)
  | .int n => .ok (n, 1)
  | .bool b => .ok (if b then 1 else 0, 1)
  | _ => .error .typeError

/-! ## Dates and times -/

/-- Used in `daysInMonth`: types.py:663-673. -/
def isLeap (y : Int) : Bool := y % 4 = 0 ∧ (y % 100 ≠ 0 ∨ y % 400 = 0)

/-- Used in `validDate`: types.py:663-673. -/
def daysInMonth (y m : Int) : Int :=
  if m = 2 then (if isLeap y then 29 else 28)
  else if m = 4 ∨ m = 6 ∨ m = 9 ∨ m = 11 then 30 else 31

/-- Arguments accepted by `datetime.date`. (Used in `decDate`: types.py:663-673.) -/
def validDate (y m d : Int) : Bool := 1 ≤ y ∧ y ≤ 9999 ∧ 1 ≤ m ∧ m ≤ 12 ∧ 1 ≤ d ∧ d ≤ daysInMonth y m

/-- Arguments accepted by `datetime.time`. (Used in `decTime`: types.py:652-661.) -/
def validTime (h m s us : Int) : Bool :=
  0 ≤ h ∧ h ≤ 23 ∧ 0 ≤ m ∧ m ≤ 59 ∧ 0 ≤ s ∧ s ≤ 59 ∧ 0 ≤ us ∧ us ≤ 999999

/-- Used in `encDate`: types.py:712-718, 734-739. -/
def kYear : Str := [121, 101, 97, 114]
/-- Used in `encDate`: types.py:712-718, 734-739. -/
def kMonth : Str := [109, 111, 110, 116, 104]
/-- Used in `encDate`: types.py:712-718, 734-739. -/
def kDay : Str := [100, 97, 121]
/-- Used in `encTime`: types.py:720-727. -/
def kHour : Str := [104, 111, 117, 114]
/-- Used in `encTime`: types.py:720-727. -/
def kMinute : Str := [109, 105, 110, 117, 116, 101]
/-- Used in `encTime`: types.py:720-727. -/
def kSecond : Str := [115, 101, 99, 111, 110, 100]
/-- Used in `encTime`: types.py:720-727. -/
def kFraction : Str := [102, 114, 97, 99, 116, 105, 111, 110]
/-- Used in `encStamp`: types.py:701-709. -/
def kDate : Str := [100, 97, 116, 101]
/-- Used in `encStamp`: types.py:701-709. -/
def kTime : Str := [116, 105, 109, 101]

/-- `d[key]` on a dict given in insertion order with unique keys. (Used in `encDate`: types.py:712-718, 734-739.) -/
def dictGet (d : List (Str × Val)) (k : Str) : Res Val :=
  match d.find? (fun p => p.1 = k) with
  | some p => .ok p.2
  | none => .error .keyError

/-- `d[k] = v`: replaces in place or appends. (Used in `decFields`: types.py:106, 246, 343, 617.) -/
def dictSet {κ α : Type} [DecidableEq κ] (d : List (κ × α)) (k : κ) (v : α) : List (κ × α) :=
  match d with
  | [] => [(k, v)]
  | p :: ps => if p.1 = k then (k, v) :: ps else p :: dictSet ps k v

/-- Used in `encDate`: types.py:712-718, 734-739. -/
def asInt : Val → Res Int
  | .int i => .ok i
  | .bool b => .ok (if b then 1 else 0)
  | _ => .error .structError

/-- A signed 16-bit year, then month and day as bytes. (Used in `encDate`: types.py:712-718, 734-739.) -/
def encYmd (y m d : Int) : Res Bytes := do
  let a ← encInt 2 true y
  let b ← encInt 1 false m
  let c ← encInt 1 false d
  return a ++ b ++ c

/-- Used in `encTime`: types.py:720-727. -/
def encHms (h m s f : Int) : Res Bytes := do
  let a ← encInt 1 false h
  let b ← encInt 1 false m
  let c ← encInt 1 false s
  let d ← encInt 1 false f
  return a ++ b ++ c ++ d

/-- `TypeDefRecord.encode` for `DateStruct`, types.py:712-718, 734-739. -/
def encDate : Val → Res Bytes
  | .date y m d => encYmd y m d
  | .datetime y m d _ _ _ _ => encYmd y m d
  | .dict l => do
    encYmd (← asInt (← dictGet l kYear)) (← asInt (← dictGet l kMonth)) (← asInt (← dictGet l kDay))
  | _ => .error .typeError

/-- `TypeDefRecord.encode` for `TimeStruct`, types.py:720-727: the fraction is stored as 0. -/
def encTime : Val → Res Bytes
  | .time h m s _ => encHms h m s 0
  | .dict l => do
    encHms (← asInt (← dictGet l kHour)) (← asInt (← dictGet l kMinute)) (← asInt (← dictGet l kSecond))
      (← asInt (← dictGet l kFraction))
  | _ => .error .typeError

/-- `TypeDefRecord.encode` for `TimeStamp`, types.py:701-709. -/
def encStamp : Val → Res Bytes
  | .datetime y m d h mi s us => do
    let a ← encDate (.date y m d)
    let b ← encTime (.time h mi s us)
    return a ++ b
  | .dict l => do
    let a ← encDate (← dictGet l kDate)
    let b ← encTime (← dictGet l kTime)
    return a ++ b
  | _ => .error .typeError

/-- `TypeDefRecord.decode` for `DateStruct`, types.py:663-673: a dict when the date is not valid. -/
def decDate (b : Bytes) : Res Val := do
  let y ← decInt 2 true (slice b 0 2)
  let m ← decInt 1 false (slice b 2 3)
  let d ← decInt 1 false (slice b 3 4)
  if validDate y m d then return .date y m d
  else return .dict [(kYear, .int y), (kMonth, .int m), (kDay, .int d)]

/-- `TypeDefRecord.decode` for `TimeStruct`, types.py:652-661. -/
def decTime (b : Bytes) : Res Val := do
  let h ← decInt 1 false (slice b 0 1)
  let m ← decInt 1 false (slice b 1 2)
  let s ← decInt 1 false (slice b 2 3)
  let f ← decInt 1 false (slice b 3 4)
  if validTime h m s f then return .time h m s f
  else return .dict [(kHour, .int h), (kMinute, .int m), (kSecond, .int s), (kFraction, .int f)]

/-- `TypeDefRecord.decode` for `TimeStamp`, types.py:675-682. -/
def decStamp (b : Bytes) : Res Val := do
  let d ← decDate (slice b 0 4)
  let t ← decTime (slice b 4 8)
  match d, t with
  | .date y m dd, .time h mi s us => return .datetime y m dd h mi s us
  | _, _ => return .dict [(kDate, d), (kTime, t)]

/-! ## The universe -/

mutual
/-- `byte_size` of the type definitions; string, array, set, extendible enumeration and rename types
have no such attribute.  types.py:106, 246, 343, 617. -/
def size : Ty → Res Nat
  | .int s _ => .ok s
  | .bool => .ok 1
  | .enum s _ _ => .ok s
  | .fixed t n => do return (← size t) * n
  | .record fs => do
    let n ← sizeFields fs
    if n = 0 then throw .assertion
    return n
  | .mobid => .ok 32
  | .auid => .ok 16
  | .rational => .ok 8
  | .date => .ok 4
  | .time => .ok 4
  | .stamp => .ok 8
  | .extEnum _ | .var _ | .strArray _ | .set _ | .str | .rename _ => .error .attributeError
/-- Used in `size`: types.py:106, 246, 343, 617. -/
def sizeFields : Fields → Res Nat
  | .nil => .ok 0
  | .cons _ t rest => do
    let a ← size t
    let b ← sizeFields rest
    return a + b
end

/-- First element matching a name or a code, in dict order, types.py:298-302. -/
def enumFind (elements : List (Int × Str)) (v : Val) : Option Int :=
  match v with
  | .text s => (elements.find? (fun e => e.2 = s)).map (·.1)
  | .int i => (elements.find? (fun e => e.1 = i)).map (·.1)
  | .bool b => (elements.find? (fun e => e.1 = if b then 1 else 0)).map (·.1)
  | _ => none

/-- `TypeDefExtEnum.encode`, types.py:842-852; `lower` is `str.lower`. -/
def extFind (lower : Str → Str) (elements : List (Bytes × Str)) (v : Val) : Res Bytes :=
  match v with
  | .auid a => match elements.find? (fun e => e.1 = a) with
    | some e => .ok e.1
    | none => .error .valueError
  | .text s => match elements.find? (fun e => lower e.2 = lower s) with
    | some e => .ok e.1
    | none => .error .valueError
  | _ => if elements = [] then .error .valueError else .error .attributeError

/-- Values a Python set can hold. (Made of `Val` types.py:712-718, 734-739.) -/
def hashable : Val → Bool
  | .list _ | .set _ | .dict _ => false
  | _ => true

/-- Is the type a `TypeDefInt`? (Made of `Ty` types.py:106, 246, 343, 617.) -/
def asIntTy : Ty → Option (Nat × Bool)
  | .int s g => some (s, g)
  | _ => none

/-- `for i in range(n): decode(data[start:end])`, types.py:355-363, 437-445, 506-517. -/
def decLoop {α : Type} (f : Bytes → Res α) (size n : Nat) (b : Bytes) : Res (List α) :=
  (List.range n).mapM fun i => f (slice b (i * size) ((i + 1) * size))

/-- The items of a list or tuple or set; other values are not iterable (text is not modelled as a list). (Made of `Val` types.py:712-718, 734-739.) -/
def items : Val → Res (List Val)
  | .list l => .ok l
  | .set l => .ok l
  | _ => .error .typeError

/-- Made of `Val` types.py:712-718, 734-739. -/
def asText : Val → Res Str
  | .text s => .ok s
  | _ => .error .attributeError

mutual
/-- `encode` of every type definition. (Made of `Ty` types.py:106, 246, 343, 617, `Val` types.py:712-718, 734-739, `encInt` types.py:132-133, `encTime` types.py:720-727 and others.) -/
def enc (lower : Str → Str) : Ty → Val → Res Bytes
  -- types.py:132-133
  | .int s g, v => do encInt s g (← asInt v)
  -- types.py:294-295 (truth value of booleans and integers)
  | .bool, .bool b => .ok [if b then 1 else 0]
  | .bool, .int i => .ok [if i ≠ 0 then 1 else 0]
  | .bool, _ => .error .typeError
  -- types.py:297-304
  | .enum s g els, v =>
    match enumFind els v with
    | some i => encInt s g i
    | none => .error .propertyError
  | .extEnum els, v => extFind lower els v
  -- types.py:365-384
  | .fixed t n, v => do
    let bs ← size t
    let l ← items v
    let parts ← (l.take n).mapM (enc lower t)
    if n < l.length then throw .propertyError
    if l = [] then throw .unboundLocal
    return parts.flatten ++ List.replicate ((n - (l.length - 1)) * bs) 0
  -- types.py:447-465
  | .var t, v => do
    let parts ← (← items v).mapM (enc lower t)
    return parts.flatten
  -- types.py:451-452; TypeDefCharacter has no `encode`
  | .strArray named, v => do
    let l ← items v
    if named then
      let ss ← l.mapM asText
      Utf16.encodeArray ss
    else if l = [] then return [] else throw .attributeError
  -- types.py:519-527; the list is the iteration order of the Python set
  | .set t, v => do
    let parts ← (← items v).mapM (enc lower t)
    return parts.flatten
  -- types.py:553-554
  | .str, v => do Utf16.encode (← asText v)
  -- types.py:734-739
  | .record fs, v =>
    match v with
    | .dict d => encFields lower fs d
    | _ => .error .typeError
  | .mobid, v => match v with
    | .mobid b => .ok b
    | .auid b => .ok b
    | _ => .error .attributeError
  | .auid, v => match v with
    | .mobid b => .ok b
    | .auid b => .ok b
    | _ => .error .attributeError
  -- types.py:729-739
  | .rational, v => do
    let r ← asRational v
    let a ← encInt 4 true r.1
    let b ← encInt 4 true r.2
    return a ++ b
  | .date, v => encDate v
  | .time, v => encTime v
  | .stamp, v => encStamp v
  -- types.py:765-766
  | .rename t, v => enc lower t v
/-- Made of `Fields` types.py:106, 246, 343, 617, `Val` types.py:712-718, 734-739. -/
def encFields (lower : Str → Str) : Fields → List (Str × Val) → Res Bytes
  | .nil, _ => .ok []
  | .cons name t rest, d => do
    let a ← enc lower t (← dictGet d name)
    let b ← encFields lower rest d
    return a ++ b
end

mutual
/-- `decode` of every type definition. (Made of `Ty` types.py:106, 246, 343, 617, `Val` types.py:712-718, 734-739, `decInt` types.py:127-130, `decInts` types.py:109-125 and others.) -/
def dec : Ty → Bytes → Res Val
  | .int s g, b => do return .int (← decInt s g b)
  -- types.py:284-286
  | .bool, b => .ok (.bool (b == [1]))
  -- types.py:288-290
  | .enum s g els, b => do
    let i ← decInt s g b
    match els.find? (fun e => e.1 = i) with
    | some e => return .text e.2
    | none => throw .keyError
  -- types.py:832-840
  | .extEnum els, b =>
    match els.find? (fun e => e.1 = b) with
    | some e => .ok (.text e.2)
    | none => .ok (.auid b)
  -- types.py:346-363
  | .fixed t n, b =>
    match asIntTy t with
    | some (s, g) => do return .list ((← decInts s g b).map .int)
    | none => do return .list (← decLoop (dec t) (← size t) n b)
  -- types.py:422-445
  | .var t, b =>
    match asIntTy t with
    | some (s, g) => do return .list ((← decInts s g b).map .int)
    | none => do
      let s ← size t
      if s = 0 then throw .zeroDivision
      return .list (← decLoop (dec t) s (b.length / s) b)
  | .strArray _, b => do return .list ((← Utf16.decodeArray b).map .text)
  -- types.py:504-517
  | .set t, b => do
    let s ← size t
    if s = 0 then throw .zeroDivision
    let l ← decLoop (dec t) s (b.length / s) b
    if ∀ v ∈ l, hashable v then return .set l else throw .typeError
  | .str, b => do return .text (← Utf16.decode b)
  -- types.py:640-648
  | .record fs, b => do return .dict (← decFields fs b [])
  | .mobid, b => .ok (.mobid (if b = [] then List.replicate 32 0 else b))
  | .auid, b => if b = [] then .error .typeError else .ok (.auid b)
  -- types.py:684-687
  | .rational, b => do
    let n ← decInt 4 true (slice b 0 4)
    let d ← decInt 4 true (slice b 4 8)
    mkRational n d
  | .date, b => decDate b
  | .time, b => decTime b
  | .stamp, b => decStamp b
  | .rename t, b => dec t b
/-- The loop over the members: `start` is advanced by dropping, `acc` is the dict being built. (Made of `Fields` types.py:106, 246, 343, 617, `Val` types.py:712-718, 734-739.) -/
def decFields : Fields → Bytes → List (Str × Val) → Res (List (Str × Val))
  | .nil, _, acc => .ok acc
  | .cons name t rest, b, acc => do
    let s ← size t
    let v ← dec t (b.take s)
    decFields rest (b.drop s) (dictSet acc name v)
end

/-! ## Indirect values, types.py:854-898 -/

/-- Type ids used for values without an explicit type. (types.py:881, 885, 889.) -/
def stringAuid : Bytes := [0x00, 0x02, 0x10, 0x01, 0, 0, 0, 0, 0x06, 0x0e, 0x2b, 0x34, 0x01, 0x04, 0x01, 0x01]
/-- types.py:885. -/
def rationalAuid : Bytes := [0x00, 0x01, 0x01, 0x03, 0, 0, 0, 0, 0x06, 0x0e, 0x2b, 0x34, 0x01, 0x04, 0x01, 0x01]
/-- types.py:889. -/
def int32Auid : Bytes := [0x00, 0x07, 0x01, 0x01, 0, 0, 0, 0, 0x06, 0x0e, 0x2b, 0x34, 0x01, 0x04, 0x01, 0x01]

/-- `TypeDefIndirect.encode`; `lookup` is the meta dictionary from type id to type. (Made of `Ty` types.py:106, 246, 343, 617, `Val` types.py:712-718, 734-739, `stringAuid` types.py:881, 885, 889, `rationalAuid` types.py:885 and others.) -/
def encIndirect (lower : Str → Str) (lookup : Bytes → Option Ty) (v : Val) (typ : Option Bytes) : Res Bytes := do
  let id ← match typ with
    | some a => if (lookup a).isSome then pure a else throw .propertyError
    | none => match v with
      | .text _ => pure stringAuid
      | .rat _ _ => pure rationalAuid
      | .int _ => pure int32Auid
      | .bool _ => pure int32Auid
      | _ => throw .notImplemented
  match lookup id with
  | none => throw .attributeError
  | some t => do
    let b ← enc lower t v
    return [0x4c] ++ id ++ b

/-- `TypeDefIndirect.decode`: type id and value. (Made of `Ty` types.py:106, 246, 343, 617, `Val` types.py:712-718, 734-739.) -/
def decIndirect (lookup : Bytes → Option Ty) (b : Bytes) : Res (Bytes × Val) := do
  if slice b 0 1 ≠ [0x4c] then throw .assertion
  let id := slice b 1 17
  match lookup id with
  | none => throw .attributeError
  | some t => do
    let v ← dec t (b.drop 17)
    return (id, v)

end Verif.Types
