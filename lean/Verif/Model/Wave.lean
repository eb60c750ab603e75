import Verif.Model.Bytes
/-!
# WAVE and AIFF header extraction (`/repo/src/aaf2/ama.py` 40-94)

A file is its bytes and a position; reading at (or beyond) the end returns fewer (or no) bytes, and
seeking beyond the end is allowed.
-/
namespace Verif.Wave

/-- `b"RIFF"`. (Used in `getWaveFmt`: ama.py:40-64.) -/
def riff : Bytes := [0x52, 0x49, 0x46, 0x46]
/-- `b"WAVE"`. (Used in `getWaveFmt`: ama.py:40-64.) -/
def wave : Bytes := [0x57, 0x41, 0x56, 0x45]
/-- `b"fmt"`. (Used in `getWaveFmt`: ama.py:40-64.) -/
def fmt : Bytes := [0x66, 0x6d, 0x74]
/-- `b"FORM"`. (Used in `getAifcFmt`: ama.py:66-94.) -/
def form : Bytes := [0x46, 0x4f, 0x52, 0x4d]
/-- `b"AIFF"`. (Used in `getAifcFmt`: ama.py:66-94.) -/
def aiff : Bytes := [0x41, 0x49, 0x46, 0x46]
/-- `b"AIFC"`. (Used in `getAifcFmt`: ama.py:66-94.) -/
def aifc : Bytes := [0x41, 0x49, 0x46, 0x43]
/-- `b"COMM"`. (Used in `getAifcFmt`: ama.py:66-94.) -/
def comm : Bytes := [0x43, 0x4f, 0x4d, 0x4d]

/-- The `while True` loops of `get_wave_fmt` (ama.py:51-64) and `get_aifc_fmt` (ama.py:81-94), which
differ in the test for the chunk wanted and in the byte order of sizes: the chunk id, its size field and
the body read. -/
def chunkLoop (isTarget : Bytes → Bool) (unpack : Bytes → Nat) (data : Bytes) (tell : Nat) : Option Bytes :=
  let chunkid := slice data tell (tell + 4)
  let tell1 := tell + chunkid.length
  let sizebuf := slice data tell1 (tell1 + 4)
  if h : sizebuf.length < 4 ∨ chunkid.length < 4 then none
  else
    let size := unpack sizebuf
    let tell2 := tell1 + sizebuf.length
    if ¬ isTarget chunkid then
      chunkLoop isTarget unpack data (tell2 + if size % 2 = 1 then size + 1 else size)
    else some (chunkid ++ sizebuf ++ slice data tell2 (tell2 + size))
termination_by data.length - tell
decreasing_by
  have h1 : ¬ (slice data tell (tell + 4)).length < 4 := fun x => h (Or.inr x)
  have h2 : ¬ (slice data (tell + (slice data tell (tell + 4)).length)
    (tell + (slice data tell (tell + 4)).length + 4)).length < 4 := fun x => h (Or.inl x)
  generalize (slice data tell (tell + 4)).length = n at *
  have h3 : (slice data (tell + n) (tell + n + 4)).length ≤ data.length - (tell + n) := by
    simp only [slice, List.length_take, List.length_drop]; omega
  omega

/-- `get_wave_fmt` (ama.py:40-64). -/
def getWaveFmt (data : Bytes) : Option Bytes :=
  if slice data 0 4 ≠ riff then none
  else
    let dataSize := slice data 4 8
    if slice data 8 12 ≠ wave then none
    else
      match chunkLoop (fun id => id.take 3 == fmt) unLe data 12 with
      | none => none
      | some r => some (riff ++ dataSize ++ wave ++ r)

/-- `get_aifc_fmt` (ama.py:66-94). -/
def getAifcFmt (data : Bytes) : Option Bytes :=
  if slice data 0 4 ≠ form then none
  else
    let dataSize := slice data 4 8
    let signature := slice data 8 12
    if signature ≠ aiff ∧ signature ≠ aifc then none
    else
      match chunkLoop (fun id => id == comm) unBe data 12 with
      | none => none
      | some r => some (form ++ dataSize ++ signature ++ r)

end Verif.Wave
