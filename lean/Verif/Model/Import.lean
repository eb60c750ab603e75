import Verif.Model.Dnx
/-!
# Importing essence (`/repo/src/aaf2/mobs.py` 283-459)

A file is its bytes: `f.read(n)` gives the next `n` of them, fewer at the end, and none after it.  The essence stream is the bytes that are written, one after the other
(C21 and C22 have how streams keep them).  Of the descriptors there are the lengths and sizes.  For audio the input is what Python's `wave` module
gives: the numbers of the format chunk, and the bytes of the data chunk.
-/
namespace Verif.Import

/-- Reading `n` bytes at a time until nothing comes (mobs.py:321-324, 422-426, 447-451). -/
def chunks (n : Nat) (data : Bytes) : List Bytes :=
  if _h : n = 0 ∨ data = [] then [] else data.take n :: chunks n (data.drop n)
termination_by data.length
decreasing_by
  simp only [not_or] at _h
  have : 0 < data.length := List.length_pos_iff.2 _h.2
  simp only [List.length_drop]; omega

/-- The result of an import: the bytes of the essence, `FrameSampleSize` and `ImageSize` of pictures, `Length` of the descriptor and of the segment. (Used in `importRaw`: mobs.py:283-334.) -/
structure Essence where
  stream : Bytes
  frameSize : Nat
  imageSize : Nat
  length : Nat
  segment : Nat
  deriving DecidableEq

/-- `raw_frame_size` (mobs.py:306-310); `sizes` are the sizes of the components of a pixel in bits. -/
def rawFrameSize (width height : Nat) (sizes : List Nat) : Nat := ((sizes.map fun s => s * width * height).sum + 7) / 8

/-- `frame_size` (mobs.py:292, 311). -/
def frameSize (raw : Nat) : Nat := (raw + (8192 - 1)) / 8192 * 8192

/-- `import_rawvideo_essence` (mobs.py:283-334). -/
def importRaw (file : Bytes) (width height : Nat) (sizes : List Nat) : Essence :=
  let raw := rawFrameSize width height sizes
  let frame := frameSize raw
  let cs := chunks raw file
  ⟨(cs.map fun c => c ++ List.replicate (frame - raw) 0).flatten, frame, cs.length * frame, cs.length, cs.length⟩

/-- The keys of `dnx_compression_auids` (video.py:121-150). -/
def compressions : List Int := [1235, 1236, 1237, 1238, 1241, 1242, 1243, 1244, 1250, 1251, 1252, 1253, 1256, 1257, 1258, 1259, 1260, 1270, 1271, 1272, 1273, 1274]

/-- `import_dnxhd_essence` of a source mob (mobs.py:336-384) that is not offline: the header of the first frame is read again; without a frame the name
`i` has no value.  Frames are written before an exception ends the import. -/
def importDnx (file : Bytes) (length : Option Nat) : Res Essence :=
  match Dnx.iterDnx file with
  | (_, some e) => .error e
  | ([], none) => .error .unboundLocal
  | (p :: ps, none) =>
    match Dnx.readHeader p with
    | .error e => .error e
    | .ok (cid, _) =>
      if cid ∈ compressions then .ok ⟨(p :: ps).flatten, p.length, 0, ps.length + 1, if length.getD 0 ≠ 0 then length.getD 0 else ps.length + 1⟩
      else .error .keyError

/-- A WAVE file: the numbers of the format chunk (audio.py:49-51), and the bytes of the data chunk. -/
structure Wav where
  channels : Nat
  rate : Nat
  bits : Nat
  data : Bytes
  deriving DecidableEq

/-- What is stored of a sound: the properties `Channels`, `SampleRate` and `QuantizationBits` of the descriptor, its `Length`, the length of the segment, and the
essence stream. (Used in `importWav`: mobs.py:386-429.) -/
structure Sound where
  channels : Nat
  rate : Nat
  bits : Nat
  length : Nat
  segment : Nat
  stream : Bytes
  deriving DecidableEq

/-- `import_audio_essence` of a source mob (mobs.py:386-429) that is not offline, with `WaveReader` (audio.py:40-65): a sample has whole bytes, and there are 2 or 3 of them
(`wave.Error`, here `valueError`); the number of frames is a division by the size of a frame; `readframes` gives a second at a time.  The edit rate is the
sample rate, so that `rescale` changes nothing, but it divides by it. -/
def importWav (w : Wav) (length : Option Nat) : Res Sound :=
  let width := (w.bits + 7) / 8
  if width ≠ 2 ∧ width ≠ 3 then .error .valueError
  else if w.channels * width = 0 then .error .zeroDivision
  else if length.getD 0 = 0 ∧ w.rate = 0 then .error .zeroDivision
  else
    let frames := w.data.length / (w.channels * width)
    .ok ⟨w.channels, w.rate, width * 8, frames, if length.getD 0 ≠ 0 then length.getD 0 else frames, (chunks (w.rate * (w.channels * width)) w.data).flatten⟩

/-- `export_audio` (mobs.py:431-455): the file that is written; `wave` writes the width of a sample in bits. -/
def exportWav (s : Sound) : Wav :=
  let size := s.bits / 8
  ⟨s.channels, s.rate, size * 8, (chunks (s.channels * s.rate * size) s.stream).flatten⟩

end Verif.Import
