import Verif.Model.Bytes
/-!
# Splitting DNx streams into frames (`/repo/src/aaf2/video.py` 85-109 and 169-240)

A file is represented by the bytes from its position to the end: `f.read(n)` returns the first `n`
of them (fewer at the end).
-/
namespace Verif.Dnx

/-- `dnxhd_frame_sizes` (video.py:85-101). -/
def dnxhdFrameSizes : List (Int × Int) :=
  [(1235, 917504), (1237, 606208), (1238, 917504), (1241, 917504), (1242, 606208), (1243, 917504),
   (1244, 606208), (1250, 458752), (1251, 458752), (1252, 303104), (1253, 188416), (1256, 1835008),
   (1258, 212992), (1259, 417792), (1260, 835584)]

/-- `dnxhr_compression_ratio` (video.py:103-109). -/
def dnxhrRatio : List (Int × Int × Int) :=
  [(1270, 57344, 255), (1271, 28672, 255), (1272, 28672, 255), (1273, 18944, 255), (1274, 5888, 255)]

/-- `dnx_frame_size` (video.py:169-179); `//` rounds down, as does Lean's `/` on `Int` for positive
divisors.  An unknown id raises `KeyError`. -/
def dnxFrameSize (cid width height : Int) : Res Int :=
  match dnxhdFrameSizes.lookup cid with
  | some size => .ok size
  | none =>
    match dnxhrRatio.lookup cid with
    | none => .error .keyError
    | some (r0, r1) =>
      let size := ((height + 15) / 16) * ((width + 15) / 16) * r0 / r1
      let size := (size + 2048) / 4096 * 4096
      .ok (max size 8192)

/-- `valid_dnx_prefix` (video.py:182-196). -/
def validPrefix (p : Nat) : Bool :=
  if p = 0x000002800100 then true
  else
    let off := p >>> 16
    if p &&& 0xFFFF0000FFFF = 0x0300 ∧ off ≥ 0x0280 ∧ off ≤ 0x2170 ∧ off &&& 3 = 0 then true
    else false

/-- Two's complement of `n` bytes (`struct` formats `>h`, `>i`). (Used in `readHeader`: video.py:198-226.) -/
def signedBe (bs : Bytes) : Int :=
  if 2 * unBe bs < 256 ^ bs.length then (unBe bs : Int) else (unBe bs : Int) - (256 ^ bs.length : Nat)

/-- `read_dnx_frame_header` (video.py:198-226): (cid, width, height, bit depth, interlaced). -/
def readHeader (h : Bytes) : Res (Int × Int × Int × Nat × Bool) :=
  if h.length < 640 then .error .valueError
  else
    let p := unBe (slice h 0 6) &&& 0xffffffffff00
    if !validPrefix p then .error .valueError
    else
      let height := signedBe (slice h 24 26)
      let width := signedBe (slice h 26 28)
      let cid := signedBe (slice h 40 44)
      let interlaced := unBe (slice h 5 6) &&& 2 ≠ 0
      let depth := unBe (slice h 33 34) >>> 5
      match (if depth = 1 then some 8 else if depth = 2 then some 10 else if depth = 3 then some 12
        else none) with
      | none => .error .valueError
      | some depth =>
        if (unBe (slice h 44 45) >>> 6) &&& 1 ≠ 0 then .error .notImplemented
        else .ok (cid, width, height, depth, interlaced)

/-- `iter_dnx_stream` (video.py:228-240): the frames yielded, and the exception that ended the
iteration, if any. -/
def iterDnx (f : Bytes) : List Bytes × Option Err :=
  if _h : (f.take 640).length ≠ 640 then ([], none)
  else
    match readHeader (f.take 640) with
    | .error e => ([], some e)
    | .ok (cid, width, height, _, _) =>
      match dnxFrameSize cid width height with
      | .error e => ([], some e)
      | .ok size =>
        let n := (size - 640).toNat
        let frame := f.take 640 ++ (f.drop 640).take n
        let (fs, e) := iterDnx ((f.drop 640).drop n)
        (frame :: fs, e)
termination_by f.length
decreasing_by
  simp only [List.length_take] at _h
  simp only [List.length_drop]
  omega

end Verif.Dnx
