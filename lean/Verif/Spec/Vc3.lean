import Verif.Model.Bytes
/-!
# What a DNx frame is

From SMPTE VC-3 as far as the library uses it: marks in the first five bytes, picture height and
width, bit depth, compression id, and the coded size of a frame.
-/
namespace Verif.Vc3

/-- Byte `i` of a frame. -/
def byte (fr : Bytes) (i : Nat) : Nat := (fr.getD i 0).toNat

/-- Coded sizes of the ids with a fixed size. -/
def fixedSize : List (Nat × Nat) :=
  [(1235, 917504), (1237, 606208), (1238, 917504), (1241, 917504), (1242, 606208), (1243, 917504),
   (1244, 606208), (1250, 458752), (1251, 458752), (1252, 303104), (1253, 188416), (1256, 1835008),
   (1258, 212992), (1259, 417792), (1260, 835584)]

/-- Bytes per macroblock, times 255, of the ids with a size depending on the picture. -/
def perBlock : List (Nat × Nat) :=
  [(1270, 57344), (1271, 28672), (1272, 28672), (1273, 18944), (1274, 5888)]

/-- `n` is the number of blocks of 16 covering `x`. -/
def Blocks (x n : Nat) : Prop := x ≤ 16 * n ∧ 16 * n < x + 16

/-- `r` is `x` rounded to the nearest multiple of 4096 (halves up). -/
def Rounded (x r : Nat) : Prop := 4096 ∣ r ∧ r ≤ x + 2048 ∧ x < r + 2048

/-- The coded size of a frame with compression id `cid` of a picture of the given size. -/
inductive Size (width height : Nat) : Nat → Nat → Prop
  | fixed {cid n} : (cid, n) ∈ fixedSize → Size width height cid n
  | block {cid k bw bh r} : (cid, k) ∈ perBlock → Blocks width bw → Blocks height bh →
      Rounded (bh * bw * k / 255) r → Size width height cid (max r 8192)

/-- A complete frame. -/
structure Frame (fr : Bytes) : Prop where
  /-- The mark of a DNxHD or of a DNxHR frame. -/
  mark : byte fr 0 = 0 ∧ byte fr 1 = 0 ∧
    ((byte fr 2 = 2 ∧ byte fr 3 = 0x80 ∧ byte fr 4 = 1) ∨
     (byte fr 4 = 3 ∧ 0x280 ≤ byte fr 2 * 256 + byte fr 3 ∧ byte fr 2 * 256 + byte fr 3 ≤ 0x2170 ∧
       4 ∣ byte fr 2 * 256 + byte fr 3))
  /-- Bit depth 8, 10 or 12. -/
  depth : byte fr 33 / 32 = 1 ∨ byte fr 33 / 32 = 2 ∨ byte fr 33 / 32 = 3
  /-- Not 4:4:4. -/
  sampling : byte fr 44 / 64 % 2 = 0
  /-- Height and width are below 2^15, the id below 2^31. -/
  range : byte fr 24 < 128 ∧ byte fr 26 < 128 ∧ byte fr 40 < 128
  /-- The length is the coded size. -/
  size : Size (byte fr 26 * 256 + byte fr 27) (byte fr 24 * 256 + byte fr 25)
    (byte fr 40 * 16777216 + byte fr 41 * 65536 + byte fr 42 * 256 + byte fr 43) fr.length

end Verif.Vc3
