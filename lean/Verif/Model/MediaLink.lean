import Verif.Model.Slots
import Verif.Model.Walk
/-!
# Linking external media (`/repo/src/aaf2/ama.py` 108-283, 361-502; `/repo/src/aaf2/content.py` 77-88)

`content.create_ama_link(path, metadata)` and `link_external_wav(metadata)` for files that are not MXF files (those are C60).

Simplifications:

* A stream of the metadata has the entries that are read, some of which may be missing (`KeyError`).  `detail` says whether the entries that only the descriptor reads are there
  (`width`, `height`, `pix_fmt`, `bit_rate`, `sample_fmt`).  A rate that is 0/0 is 0/1 (rational.py:95-104); other entries are numbers that fit (C06, C10).
* Of a descriptor its kind, rate and length are there, and the number of channels; the summaries of WAVE and AIFF files are C43.  The file can be read.
* The kinds of slots are the definitions that are found for `picture` and `sound` (C58), whose short names are `Picture` and `Sound`.
* `tape`, `source` and `master` are the identifiers of the three new mobs; `name m i` is the name of the clip in the slot `i` of the mob `m` (`Model/Walk`).
-/
namespace Verif.MediaLink
open Verif.Walk (Clip Obj Slot createSourceClip)

/-- Used in `Stream`: ama.py:224-261. -/
abbrev Rate := Int × Int

/-- Used in `Stream`: ama.py:224-261. -/
inductive Kind where
  | picture
  | sound
  deriving DecidableEq

/-- `StreamInfo` (ama.py:224-261); `kind` is `codec_type`. -/
structure Stream where
  kind : Option Kind
  rate : Option Rate
  length : Option Int
  channels : Option Nat
  codec : Option String
  detail : Bool
  deriving DecidableEq

/-- `format_name` and `format_long_name` (ama.py:130-140). -/
inductive Format where
  | wav
  | aiff
  | quickTime
  | other
  deriving DecidableEq

/-- `FormatInfo` (ama.py:108-128). -/
structure Info where
  format : Format
  streams : List Stream
  deriving DecidableEq

/-- `metadata[key]`. (Used in `Stream.desc`: ama.py:263-282.) -/
def entry {α : Type} : Option α → Res α
  | none => .error .keyError
  | some a => .ok a

/-- `first_picture_stream` (ama.py:126-128). -/
def Info.picture (i : Info) : Option Stream := i.streams.find? fun s => s.kind = some .picture

/-- `first_sound_stream` (ama.py:121-123). -/
def Info.sound (i : Info) : Option Stream := i.streams.find? fun s => s.kind = some .sound

/-- An essence descriptor. (Used in `Stream.desc`: ama.py:263-282.) -/
inductive Desc where
  | wave (rate : Rate) (length : Int)
  | aifc (rate : Rate) (length : Int)
  | video (rate : Rate) (length : Int)
  | pcm (rate : Rate) (length : Int) (channels : Nat)
  | multiple (rate : Rate) (length : Int) (l : List Desc)

/-- `create_pcm_descriptor` (ama.py:263-282) and `create_video_descriptor` (ama.py:361-393). -/
def Stream.desc (s : Stream) (k : Kind) : Res Desc := do
  let r ← entry s.rate
  let n ← entry s.length
  if s.detail then
    match k with
    | .picture => .ok (.video r n)
    | .sound =>
      let c ← entry s.channels
      .ok (.pcm r n c)
  else .error .keyError

/-- The loop of `create_multistream_descriptor` (ama.py:207-221). -/
def descs : List Stream → Res (List Desc)
  | [] => .ok []
  | s :: r =>
    match s.kind with
    | none => descs r
    | some k => do
      let d ← s.desc k
      let l ← descs r
      .ok (d :: l)

/-- The stream of `edit_rate` and `length` (ama.py:153-173). -/
def Info.main (i : Info) : Option Stream := i.picture <|> i.sound

/-- `coalesce_descriptors` (ama.py:195-205). -/
def Info.coalesce (i : Info) : List Desc → Res Desc
  | [] => .error .indexError
  | [d] => .ok d
  | l =>
    match i.main with
    | none => .error .attributeError
    | some s => do
      let n ← entry s.length
      let r ← entry s.rate
      .ok (.multiple r n l)

/-- `create_wav_descriptor`, `create_aifc_descriptor` (ama.py:175-193). -/
def Info.soundDesc (i : Info) (f : Rate → Int → Desc) : Res (Option Desc) :=
  match i.sound with
  | none => .error .attributeError
  | some s => do
    let r ← entry s.rate
    let n ← entry s.length
    .ok (some (f r n))

/-- `create_descriptor` (ama.py:130-140). -/
def Info.desc (i : Info) : Res (Option Desc) :=
  match i.format with
  | .wav => i.soundDesc .wave
  | .aiff => i.soundDesc .aifc
  | .quickTime => do
    let l ← descs i.streams
    let d ← i.coalesce l
    .ok (some d)
  | .other => .ok none

/-- A timeline slot whose segment is a sequence: `segLen` is the stored length of the sequence, `track` the physical track number (mobslots.py:87-141). -/
structure Track where
  id : Nat
  kind : Kind
  rate : Rate
  number : Option Nat
  segLen : Int
  comps : List Obj
  deriving DecidableEq

/-- As `slot_at` and `walk` see it. (Used in `appendSource`: ama.py:441-453.) -/
def Track.slot (t : Track) : Slot := ⟨t.id, .sequence t.comps⟩

/-- `edit_rate or 25` (mobslots.py:104). -/
def rateOr (r : Rate) : Rate := if r.1 = 0 then (25, 1) else r

/-- `create_empty_sequence_slot` (mobs.py:107-118) of the mob `m` and a clip appended to the components. -/
def addTrack (name : Nat → Nat → Nat) (m : Nat) (l : List Track) (k : Kind) (r : Rate) (number : Option Nat) (segLen : Int) (len : Int) (c : Clip) : Res (List Track) := do
  let x ← Slots.createSlot (l.map (·.id)) none
  .ok (l ++ [⟨x.2, k, rateOr r, number, segLen, [⟨name m x.2, len, .clip c⟩]⟩])

/-- A clip without a mob (components.py:180-184). -/
def noClip : Clip := ⟨0, 0, 0⟩

/-- A slot of the tape mob (ama.py:420-424, 429-433). -/
def tapeTrack (name : Nat → Nat → Nat) (m : Nat) (k : Kind) (s : Stream) (l : List Track) : Res (List Track) := do
  let r ← entry s.rate
  let n ← entry s.length
  addTrack name m l k r none n n noClip

/-- `for channel in range(…)` (ama.py:428). -/
def tapeTracks (name : Nat → Nat → Nat) (m : Nat) (s : Stream) : Nat → List Track → Res (List Track)
  | 0, l => .ok l
  | c + 1, l => do
    let l ← tapeTrack name m .sound s l
    tapeTracks name m s c l

/-- The slot for pictures (ama.py:418-424). -/
def tapePicture (name : Nat → Nat → Nat) (m : Nat) (i : Info) : Res (List Track) :=
  match i.picture with
  | none => .ok []
  | some s => tapeTrack name m .picture s []

/-- `tape_mob_for_format` (ama.py:415-439): the slots. -/
def tapeMob (name : Nat → Nat → Nat) (m : Nat) (i : Info) : Res (List Track) := do
  let l ← tapePicture name m i
  match i.sound with
  | none => .ok l
  | some s => do
    let c ← entry s.channels
    tapeTracks name m s c l

/-- The loop of `append_source_to_mob_as_new_slots` (ama.py:441-453): `n` is `sound_physical_track`, `fr` the mob with the slots `all`. -/
def appendSource (name : Nat → Nat → Nat) (fr : Nat) (all : List Track) (to : Nat) : List Track → Nat → List Track → Res (List Track)
  | [], _, l => .ok l
  | t :: r, n, l => do
    let c ← createSourceClip fr (all.map Track.slot) t.id none none
    let l ← addTrack name to l t.kind t.rate (if t.kind = .sound then some n else none) 0 c.2 c.1
    appendSource name fr all to r (if t.kind = .sound then n + 1 else n) l

/-- `content.mobs`. (Used in `linkRest`: ama.py:474-483, 500-502.) -/
abbrev World := List (Nat × List Track)

/-- What is returned: the slots of the three mobs and the descriptor of the source mob. (Used in `linkRest`: ama.py:474-483, 500-502.) -/
structure Linked where
  master : List Track
  source : List Track
  tape : List Track
  desc : Desc

/-- `smob.comments['Video'] = …codec_name` (ama.py:479-481). -/
def comment (i : Info) : Res Unit :=
  match i.picture with
  | none => .ok ()
  | some s => do
    let _ ← entry s.codec
    .ok ()

/-- `create_mobs` and what follows (ama.py:474-483, 500-502), after the tape mob is there. -/
def linkRest (name : Nat → Nat → Nat) (tape source master : Nat) (i : Info) (d : Desc) (W : World) (t : List Track) : Res (Option Linked) × World :=
  match appendSource name tape t source t 1 [] with
  | .error e => (.error e, W ++ [(tape, t)])
  | .ok s =>
    match appendSource name source s master s 1 [] with
    | .error e => (.error e, W ++ [(tape, t), (source, s)])
    | .ok m =>
      match comment i with
      | .error e => (.error e, W ++ [(tape, t), (source, s), (master, m)])
      | .ok () => (.ok (some ⟨m, s, t, d⟩), W ++ [(tape, t), (source, s), (master, m)])

/-- `create_media_link` (ama.py:396-502). -/
def createMediaLink (name : Nat → Nat → Nat) (tape source master : Nat) (i : Info) (W : World) : Res (Option Linked) × World :=
  match i.desc with
  | .error e => (.error e, W)
  | .ok none => (.ok none, W)
  | .ok (some d) =>
    match tapeMob name tape i with
    | .error e => (.error e, W)
    | .ok t => linkRest name tape source master i d W t

/-- The mobs as `walk` sees them. (Made of `Track` mobslots.py:87-141, `Track.slot` ama.py:441-453, `World` ama.py:474-483, 500-502.) -/
def World.walk (W : World) : Walk.World := W.map fun e => (e.1, e.2.map Track.slot)

end Verif.MediaLink
