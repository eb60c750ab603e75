import Verif.Model.Utf16
/-!
# Values in MXF headers (`/repo/src/aaf2/mxf.py` 56-57, 63-65, 75-135)

The decoders that `link_external_mxf` uses for names, comments, dates, rates and the layout of pictures.

Simplifications: an AUID is its 16 bytes (C01), so that `reverse_auid(decode_auid(data))` exchanges the halves of the bytes; fewer than 16 bytes raise.
-/
namespace Verif.MxfValues
open Verif.Utf16 (Str decodeRaw)

/-- The bytes of UTF-16 units in the other order, as the codec `utf-16be` (mxf.py:57, 83) takes them. -/
def swapPairs : Bytes → Bytes
  | a :: b :: l => b :: a :: swapPairs l
  | l => l

/-- `data.decode('utf-16be')` (mxf.py:57, 83). -/
def decodeBe (b : Bytes) : Res Str := decodeRaw true (swapPairs b)

/-- `decode_utf16be` (mxf.py:56-57): the text before the first U+0000. -/
def decodeName (b : Bytes) : Res Str := (decodeBe b).map fun s => s.takeWhile (· ≠ 0)

/-- `.rstrip('\x00')` (mxf.py:80, 83). -/
def rstrip (s : Str) : Str := (s.reverse.dropWhile (· = 0)).reverse

/-- What an indirect value is (mxf.py:80, 83, 86); `None` is left to `Option`. -/
inductive Value where
  | text (s : Str)
  | int (v : Int)
  deriving DecidableEq

/-- `reverse_auid(decode_auid(data[:16]))` (mxf.py:59-65, 77). -/
def typeOf (b : Bytes) : Bytes := (b.take 16).drop 8 ++ (b.take 16).take 8

/-- The three AUIDs that are known (mxf.py:78, 81, 84). -/
def textL : Bytes := [0x00, 0x06, 0x0e, 0x2b, 0x34, 0x01, 0x04, 0x01, 0x4c, 0x00, 0x02, 0x10, 0x01, 0x00, 0x00, 0x00]
/-- The text in big-endian order (mxf.py:81). -/
def textB : Bytes := [0x00, 0x06, 0x0e, 0x2b, 0x34, 0x01, 0x04, 0x01, 0x42, 0x01, 0x10, 0x02, 0x00, 0x00, 0x00, 0x00]
/-- The number (mxf.py:84). -/
def intL : Bytes := [0x00, 0x06, 0x0e, 0x2b, 0x34, 0x01, 0x04, 0x01, 0x4c, 0x00, 0x07, 0x01, 0x01, 0x00, 0x00, 0x00]

/-- `assert data[16] == 0x01` (mxf.py:79, 82, 85). -/
def check (b : Bytes) : Res Unit :=
  match b[16]? with
  | none => .error .indexError
  | some x => if x = 1 then .ok () else .error .assertion

/-- The value of `n` bytes as a signed number (`struct`'s `i`, mxf.py:86, and `read_s32be`, mxf.py:103, 107). -/
def toSigned (n v : Nat) : Int := if 2 * v < 256 ^ n then v else (v : Int) - (256 ^ n : Nat)

/-- `struct.unpack("<i", …)` (mxf.py:86). -/
def unpackInt (b : Bytes) : Res Int := if b.length = 4 then .ok (toSigned 4 (unLe b)) else .error .structError

/-- `decode_indirect_value` (mxf.py:75-89). -/
def decodeIndirect (b : Bytes) : Res (Option Value) :=
  if b.length < 16 then .error .valueError
  else if typeOf b = textL then do
    check b
    let s ← decodeRaw true (b.drop 17)
    return some (.text (rstrip s))
  else if typeOf b = textB then do
    check b
    let s ← decodeBe (b.drop 17)
    return some (.text (rstrip s))
  else if typeOf b = intL then do
    check b
    let v ← unpackInt (b.drop 17)
    return some (.int v)
  else .ok none

/-- `read_u32be` and the like (utils.py:34-36) of a file: the number and the rest. -/
def readBe (n : Nat) (b : Bytes) : Res (Nat × Bytes) :=
  if b.length < n then .error .structError else .ok (unBe (b.take n), b.drop n)

/-- `decode_rational` (mxf.py:91-95): the two numbers of the text. -/
def decodeRational (b : Bytes) : Res (Nat × Nat) := do
  let (n, b) ← readBe 4 b
  let (d, _) ← readBe 4 b
  return (n, d)

/-- One entry of a line map (mxf.py:102-105, 106-109). -/
def lineAt (present : Bool) (b : Bytes) : Res (Int × Bytes) :=
  if present then (readBe 4 b).map fun x => (toSigned 4 x.1, x.2) else .ok (0, b)

/-- `decode_video_line_map` (mxf.py:97-110). -/
def decodeLines (b : Bytes) : Res (List Int) := do
  let (count, b) ← readBe 4 b
  let (size, b) ← readBe 4 b
  if size = 4 then
    let (x, b) ← lineAt (decide (0 < count)) b
    let (y, _) ← lineAt (decide (1 < count)) b
    return [x, y]
  else return []

/-- The loop of `decode_pixel_layout` (mxf.py:112-120), with the number of turns left: codes and depths. -/
def decodeLayout : Nat → Bytes → Res (List (Nat × Nat))
  | 0, _ => .ok []
  | n + 1, b =>
    match b with
    | code :: depth :: rest => if code = 0 then .ok [] else (decodeLayout n rest).map ((code.toNat, depth.toNat) :: ·)
    | _ => .error .structError

/-- A date and time, the arguments of `datetime.datetime` (mxf.py:132). -/
structure Stamp where
  year : Nat
  month : Nat
  day : Nat
  hour : Nat
  minute : Nat
  sec : Nat
  deriving DecidableEq

/-- The days of a month as `datetime.datetime` counts them (mxf.py:132). -/
def daysIn (y m : Nat) : Nat :=
  if m = 2 then (if y % 4 = 0 ∧ (y % 100 ≠ 0 ∨ y % 400 = 0) then 29 else 28)
  else [0, 31, 28, 31, 30, 31, 30, 31, 31, 30, 31, 30, 31].getD m 0

/-- The ranges that `datetime.datetime(…)` checks (mxf.py:132). -/
def accepted (t : Stamp) : Bool :=
  decide (1 ≤ t.year ∧ t.year ≤ 9999 ∧ 1 ≤ t.month ∧ t.month ≤ 12 ∧ 1 ≤ t.day ∧ t.day ≤ daysIn t.year t.month ∧ t.hour ≤ 23 ∧ t.minute ≤ 59 ∧ t.sec ≤ 59)

/-- `decode_timestamp` (mxf.py:122-135); `none` is `datetime.datetime.now()`. -/
def decodeStamp (b : Bytes) : Res (Option Stamp) := do
  let (t, _) ← readBe 8 b
  let s : Stamp := ⟨t / 2 ^ 48, t / 2 ^ 40 % 256, t / 2 ^ 32 % 256, t / 2 ^ 24 % 256, t / 2 ^ 16 % 256, t / 2 ^ 8 % 256⟩
  return if accepted s then some s else none

end Verif.MxfValues
