import Verif.Model.MxfValues
/-!
# How values are stored in MXF headers

After SMPTE 377: numbers are big-endian, arrays start with the number and the size of their elements, a pixel layout has eight pairs and ends at a zero code, a time
stamp has year, month, day, hour, minute, second and quarters of milliseconds; an indirect value has the byte order, the id of the type in that order and the
value in that order.  Nothing of the decoders is used but the forms of their results.
-/
namespace Verif.Spec.MxfValues
open Verif (Bytes leN beN)
open Verif.MxfValues (Stamp)

/-- The UTF-16 units of a code point. -/
def unitsOf (c : Nat) : List Nat := if c < 0x10000 then [c] else [0xD800 + (c - 0x10000) / 0x400, 0xDC00 + (c - 0x10000) % 0x400]

/-- Byte orders. -/
inductive Order where
  | little | big
  deriving DecidableEq

/-- A number in an order. -/
def Order.num (o : Order) (n v : Nat) : Bytes :=
  match o with
  | .little => leN n v
  | .big => beN n v

/-- A text in an order. -/
def Order.text (o : Order) (s : List Nat) : Bytes := s.flatMap fun c => (unitsOf c).flatMap (o.num 2)

/-- The first byte of an indirect value: `L` or `B`. -/
def Order.mark : Order → UInt8
  | .little => 0x4c
  | .big => 0x42

/-- The id of a type, whose fields two and three are 0 and whose last eight bytes are those of all types. -/
def Order.type (o : Order) (d1 : Nat) : Bytes := o.num 4 d1 ++ o.num 2 0 ++ o.num 2 0 ++ [0x06, 0x0e, 0x2b, 0x34, 0x01, 0x04, 0x01, 0x01]

/-- The types `String` and `Int32`. -/
def stringType : Nat := 0x01100200
/-- See `stringType`. -/
def int32Type : Nat := 0x01010700

/-- An indirect value. -/
def indirect (o : Order) (type : Nat) (value : Bytes) : Bytes := o.mark :: (o.type type ++ value)

/-- A signed number of 32 bits as an unsigned one. -/
def wrap (v : Int) : Nat := (v % 2 ^ 32).toNat

/-- Which numbers have 32 bits. -/
def Int32 (v : Int) : Prop := -(2 ^ 31) ≤ v ∧ v < 2 ^ 31

/-- A rational number. -/
def rational (n d : Int) : Bytes := beN 4 (wrap n) ++ beN 4 (wrap d)

/-- An array of numbers. -/
def numbers (l : List Int) : Bytes := beN 4 l.length ++ beN 4 4 ++ l.flatMap fun v => beN 4 (wrap v)

/-- A pixel layout. -/
def layout (l : List (UInt8 × UInt8)) : Bytes := (l.flatMap fun x => [x.1, x.2]) ++ List.replicate (16 - 2 * l.length) 0

/-- A leap year. -/
def Leap (y : Nat) : Prop := 400 ∣ y ∨ (4 ∣ y ∧ ¬ 100 ∣ y)

/-- A date of the Gregorian calendar, in the years that `datetime` has. -/
structure Valid (t : Stamp) : Prop where
  year : 1 ≤ t.year ∧ t.year ≤ 9999
  month : 1 ≤ t.month ∧ t.month ≤ 12
  day : 1 ≤ t.day ∧ t.day ≤ 31
  short : t.month = 4 ∨ t.month = 6 ∨ t.month = 9 ∨ t.month = 11 → t.day ≤ 30
  february : t.month = 2 → t.day ≤ 29 ∧ (t.day = 29 → Leap t.year)
  time : t.hour < 24 ∧ t.minute < 60 ∧ t.sec < 60

/-- Its fields fit. -/
def Fits (t : Stamp) : Prop := t.year < 65536 ∧ t.month < 256 ∧ t.day < 256 ∧ t.hour < 256 ∧ t.minute < 256 ∧ t.sec < 256

/-- A time stamp. -/
def stamp (t : Stamp) (quarters : UInt8) : Bytes :=
  beN 2 t.year ++ beN 1 t.month ++ beN 1 t.day ++ beN 1 t.hour ++ beN 1 t.minute ++ beN 1 t.sec ++ [quarters]

end Verif.Spec.MxfValues
