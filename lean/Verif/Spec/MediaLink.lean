import Verif.Model.MediaLink
import Verif.Spec.Source
/-!
# What a link to media is

"The returned MasterMob will have one slot for each video stream and each audio channel in the file" (ama.py:401-406).  The slots of the master mob show the source mob, those of the source mob the tape mob
(`Spec/Source`).
-/
namespace Verif.Spec.MediaLink
open Verif.MediaLink

/-- A track: its kind, its rate and how long it is. -/
structure Line where
  kind : Kind
  rate : Rate
  length : Int
  deriving DecidableEq

/-- The tracks of a stream: one for a video stream, one for each channel of an audio stream. -/
def lines (s : Stream) : List Line :=
  match s.kind, s.rate, s.length, s.channels with
  | some .picture, some r, some n, _ => [⟨.picture, r, n⟩]
  | some .sound, some r, some n, some c => List.replicate c ⟨.sound, r, n⟩
  | _, _, _, _ => []

/-- The tracks of a file. -/
def tracks (i : Info) : List Line := i.streams.flatMap lines

/-- The entries of a stream are there, it has a rate and a length. -/
def Whole (s : Stream) : Prop :=
  match s.kind with
  | none => True
  | some .picture => ∃ r n, s.rate = some r ∧ s.length = some n ∧ r.1 ≠ 0 ∧ 0 ≤ n ∧ s.detail = true ∧ s.codec.isSome
  | some .sound => ∃ r n c, s.rate = some r ∧ s.length = some n ∧ s.channels = some c ∧ r.1 ≠ 0 ∧ 0 ≤ n ∧ s.detail = true

/-- A file that can be linked: a WAVE or AIFF file with sound, or a QuickTime file with a picture or sound. -/
def Linkable (i : Info) : Prop :=
  match i.format with
  | .wav | .aiff => ∃ s ∈ i.streams, s.kind = some .sound
  | .quickTime => ∃ s ∈ i.streams, s.kind.isSome
  | .other => False

/-- What a slot is. -/
def line (t : Track) : Line := ⟨t.kind, t.rate, t.slot.length⟩

/-- The descriptors that a descriptor is made of. -/
def leaves : Desc → List Desc
  | .multiple _ _ l => l
  | d => [d]

/-- What a descriptor says about its stream. -/
def says : Desc → Option (Rate × Int × Option Nat)
  | .video r n => some (r, n, none)
  | .pcm r n c => some (r, n, some c)
  | .wave r n => some (r, n, none)
  | .aifc r n => some (r, n, none)
  | .multiple _ _ _ => none

/-- The same of a stream. -/
def heard (s : Stream) : Option (Rate × Int × Option Nat) :=
  match s.kind, s.rate, s.length, s.channels with
  | some .picture, some r, some n, _ => some (r, n, none)
  | some .sound, some r, some n, c => some (r, n, c)
  | _, _, _, _ => none

/-- The first stream of a kind. -/
def first (k : Kind) (i : Info) : Option Stream := i.streams.find? fun s => s.kind = some k

/-- The tracks of the first video stream and the first audio stream. -/
def firsts (i : Info) : List Line := ((first .picture i).toList ++ (first .sound i).toList).flatMap lines

/-- What the descriptor of the source mob must be. -/
def Described (i : Info) (d : Desc) : Prop :=
  match i.format with
  | .wav => ∃ s r n, first .sound i = some s ∧ s.rate = some r ∧ s.length = some n ∧ d = .wave r n
  | .aiff => ∃ s r n, first .sound i = some s ∧ s.rate = some r ∧ s.length = some n ∧ d = .aifc r n
  | .quickTime => (leaves d).map says = (i.streams.filter fun s => s.kind.isSome).map heard
  | .other => False

end Verif.Spec.MediaLink
