import Verif.Model.MasterImport
import Verif.Spec.Vc3
/-!
# What an import has to leave in the file

Nothing here uses the functions of the model; only its data types are shared.
-/
namespace Verif.Spec.MasterImport
open Verif.Walk (World Slot Obj Clip)
open Verif.MasterImport (File Call Input Rate)

/-- The essence in a file, and the number of frames: a stream of complete DNxHD frames, with fewer bytes than a header after them, or a WAVE file with
samples of 16 or 24 bits. -/
inductive Content : Input → Bytes → Nat → Prop
  | dnx (frames : List Bytes) (tail : Bytes) (hne : frames ≠ []) (hf : ∀ x ∈ frames, Vc3.Frame x) (ht : tail.length < 640) :
      Content (.dnx (frames.flatten ++ tail)) frames.flatten frames.length
  | wav (channels rate bits : Nat) (data : Bytes) (hc : 0 < channels) (hr : 0 < rate) (hb : bits = 16 ∨ bits = 24) :
      Content (.wav ⟨channels, rate, bits, data⟩) data (data.length / (channels * (bits / 8)))

/-- The edit rate of the slots if none is given, or 0: 25 for pictures and the sample rate for sound. -/
def defaultRate : Input → Rate
  | .dnx _ => ⟨25, 1⟩
  | .wav w => ⟨w.rate, 1⟩

/-- The edit rate of the slots. -/
def rate (c : Call) : Rate :=
  match c.rate with
  | some ⟨n + 1, d⟩ => ⟨n + 1, d⟩
  | _ => defaultRate c.input

/-- The length of all frames, in units of the edit rate. -/
def allFrames (c : Call) (frames : Nat) : Nat :=
  match c.input with
  | .dnx _ => frames
  | .wav w => frames * (rate c).num / ((rate c).den * w.rate)

/-- The length of the clips: what is given, if it is not 0, or that of all frames. -/
def length (c : Call) (frames : Nat) : Nat :=
  match c.length with
  | some (n + 1) => n + 1
  | _ => allFrames c frames

/-- The import `c` is in the file, in slot `i` of the master mob: a clip of slot 1 of the source mob, which is the tape or an empty clip, both with the length; the
essence of the source mob; its length; and the edit rates. -/
structure Imported (F : File) (c : Call) (i : Nat) (bytes : Bytes) (frames : Nat) : Prop where
  clip : ∃ slots o, (c.master, slots) ∈ F.world ∧ ⟨i, .one o⟩ ∈ slots ∧ o.kind = .clip ⟨c.new, 1, 0⟩ ∧ o.len = (length c frames : Int)
  source : ∃ o, (c.new, [⟨1, .one o⟩]) ∈ F.world ∧ o.len = (length c frames : Int) ∧
    (∀ t, c.tape = some t → o.id = t.id ∧ o.kind = t.kind) ∧ (c.tape = none → o.kind = .clip ⟨0, 0, 0⟩)
  data : F.data c.new = if c.offline then none else some bytes
  lengths : F.lengths c.new = some frames
  rates : F.rates c.master i = some (rate c) ∧ F.rates c.new 1 = some (rate c)

/-- The ids of the mobs. -/
def ids (F : File) : List Nat := F.world.map (·.1)

/-- Slots with the numbers 1, 2, ... -/
def Numbered (slots : List Slot) : Prop := slots.map Slot.id = List.range' 1 slots.length

/-- The mobs `M` are master mobs: they are in the file with slots that have the numbers 1, 2, ...; there is one mob for each id, one slot for each slot id, and
what is known of mobs is of mobs that are there. -/
structure Good (M : List Nat) (F : File) : Prop where
  mobs : (ids F).Nodup
  slots : ∀ e ∈ F.world, (e.2.map Slot.id).Nodup
  masters : ∀ m ∈ M, ∃ l, (m, l) ∈ F.world ∧ Numbered l
  data : ∀ k, F.data k ≠ none → k ∈ ids F

/-- Everything that was in `F` is in `F'`; only to the slots of the mobs `M` others may have been added. -/
structure Keeps (M : List Nat) (F F' : File) : Prop where
  world : ∀ m l, (m, l) ∈ F.world → ∃ r, (m, l ++ r) ∈ F'.world ∧ (m ∉ M → r = [])
  data : ∀ m ∈ ids F, F'.data m = F.data m ∧ F'.lengths m = F.lengths m
  rates : ∀ m l, (m, l) ∈ F.world → ∀ s ∈ l, F'.rates m s.id = F.rates m s.id
  ids : ∀ m ∈ ids F, m ∈ ids F'

end Verif.Spec.MasterImport
