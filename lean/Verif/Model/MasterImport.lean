import Verif.Model.Walk
import Verif.Model.Slots
import Verif.Model.Import
/-!
# Importing essence into master mobs (`/repo/src/aaf2/mobs.py` 196-265, 336-429)

The mobs of a file with their slots are a `World` (C57).  A new mob gets its mob id from the call (`c.new`; mob ids are random, C25).
Of the descriptors there is `Length`.  An import goes on until something raises; what was done before it stays.

Simplifications: names, media kinds and the other properties of descriptors are left out, and `rescale` (utils.py:221-222) is exact instead of
in floats.  The master mob is in the file.
-/
namespace Verif.MasterImport
open Verif.Walk (World Slot Obj Clip Kind Segment createSourceClip)
open Verif.Import (chunks compressions)

/-- An edit rate. (Used in `Call`: mobs.py:196, 216.) -/
structure Rate where
  num : Nat
  den : Nat
  deriving DecidableEq

/-- The file at `path`: a DNxHD stream, or a WAVE file. (Used in `Call`: mobs.py:196, 216.) -/
inductive Input where
  | dnx (file : Bytes)
  | wav (w : Import.Wav)

/-- A call of `import_dnxhd_essence` or `import_audio_essence` of a master mob (mobs.py:196, 216). -/
structure Call where
  master : Nat
  new : Nat
  input : Input
  rate : Option Rate
  tape : Option Obj
  length : Option Nat
  offline : Bool

/-- What there is of a file: `data` are the streams of `content.essencedata` by mob id, `lengths` the `Length` of descriptors, `rates` the edit rates of
slots, `used` the clips that were attached, `next` a name for the next new object. (Used in `createEssence`: mobs.py:250-265.) -/
structure File where
  world : World
  rates : Nat → Nat → Option Rate
  data : Nat → Option Bytes
  lengths : Nat → Option Nat
  used : List Nat
  next : Nat

/-- Changing the slots of a mob. (Used in `createEssence`: mobs.py:250-265.) -/
def setSlots (W : World) (m : Nat) (f : List Slot → List Slot) : World := W.map fun e => if e.1 = m then (e.1, f e.2) else e

/-- Changing an entry of a map. (Used in `createEssence`: mobs.py:250-265.) -/
def upd {β : Type} (f : Nat → β) (k : Nat) (v : β) : Nat → β := fun j => if j = k then v else f j

/-- `edit_rate or …` (mobs.py:399, mobslots.py:104): a rate of 0 is as none. -/
def orRate (r : Option Rate) (d : Rate) : Rate :=
  match r with
  | some r => if r.num = 0 then d else r
  | none => d

/-- `create_essence` (mobs.py:250-265) of a new mob: the slot 1 with an empty clip, and essence data. -/
def createEssence (F : File) (new : Nat) (rate : Rate) (offline : Bool) : File :=
  { F with
    world := setSlots F.world new (· ++ [⟨1, .one ⟨F.next, 0, .clip ⟨0, 0, 0⟩⟩⟩])
    rates := upd F.rates new (upd (F.rates new) 1 (some rate))
    data := if offline then F.data else upd F.data new (some [])
    next := F.next + 1 }

/-- `slot.segment = …` of the slot 1. (Used in `useTape`: mobs.py:343-344, 403-404.) -/
def setSegment (F : File) (new : Nat) (o : Obj) : File :=
  { F with world := setSlots F.world new fun l => l.map fun s => if s.id = 1 then ⟨1, .one o⟩ else s }

/-- `slot.segment = tape` (mobs.py:343-344, 403-404, properties.py:371-400): a clip that is attached elsewhere raises, after it was set. -/
def useTape (F : File) (new : Nat) : Option Obj → File × Res Unit
  | none => (F, .ok ())
  | some o =>
    if o.id ∈ F.used then (setSegment F new o, .error .attachError)
    else ({ setSegment F new o with used := F.used ++ [o.id] }, .ok ())

/-- `segment.length = …`. (Used in `setLen`: mobs.py:381, 418.) -/
def withLen (n : Int) : Segment → Segment
  | .one o => .one { o with len := n }
  | .sequence l => .sequence l

/-- `slot.segment.length = …` of the slot 1 (mobs.py:381, 418). -/
def setLen (F : File) (new : Nat) (n : Int) : File :=
  { F with world := setSlots F.world new fun l => l.map fun s => if s.id = 1 then ⟨1, withLen n s.segment⟩ else s }

/-- `descriptor.length = …` (mobs.py:382, 417). -/
def setLength (F : File) (new n : Nat) : File := { F with lengths := upd F.lengths new (some n) }

/-- `stream.write(…)`, if there is essence data (mobs.py:378-379, 420-427). -/
def write (F : File) (new : Nat) (b : Bytes) : File := { F with data := upd F.data new ((F.data new).map (· ++ b)) }

/-- The frames (mobs.py:363-382). -/
def dnxFrames (F : File) (c : Call) (file : Bytes) : File × Res Unit :=
  match Dnx.iterDnx file with
  | ([], some e) => (F, .error e)
  | ([], none) => (if c.length.getD 0 ≠ 0 then setLen F c.new (c.length.getD 0 : Nat) else F, .error .unboundLocal)
  | (p :: ps, r) =>
    match Dnx.readHeader p with
    | .error e => (F, .error e)
    | .ok (cid, _) =>
      if cid ∈ compressions then
        let F := write F c.new (p :: ps).flatten
        match r with
        | some e => (F, .error e)
        | none =>
          (setLength (setLen F c.new (if c.length.getD 0 ≠ 0 then c.length.getD 0 else ps.length + 1 : Nat)) c.new (ps.length + 1), .ok ())
      else (F, .error .keyError)

/-- `import_dnxhd_essence` of the new source mob (mobs.py:336-384); the rate of a slot without one is 25 (mobslots.py:104). -/
def sourceDnx (F : File) (c : Call) (file : Bytes) : File × Res Rate :=
  let rate := orRate c.rate ⟨25, 1⟩
  match useTape (createEssence F c.new rate c.offline) c.new c.tape with
  | (F, .error e) => (F, .error e)
  | (F, .ok _) =>
    match dnxFrames F c file with
    | (F, .error e) => (F, .error e)
    | (F, .ok _) => (F, .ok rate)

/-- The lengths and the data (mobs.py:416-427). -/
def wavData (F : File) (c : Call) (w : Import.Wav) (rate : Rate) : File × Res Unit :=
  let size := w.channels * ((w.bits + 7) / 8)
  let frames := w.data.length / size
  let F := setLength F c.new frames
  if c.length.getD 0 = 0 ∧ w.rate = 0 then (F, .error .zeroDivision)
  else
    let F := setLen F c.new (if c.length.getD 0 ≠ 0 then c.length.getD 0 else frames * rate.num / (rate.den * w.rate) : Nat)
    (write F c.new (chunks (w.rate * size) w.data).flatten, .ok ())

/-- `import_audio_essence` of the new source mob (mobs.py:386-429), with `WaveReader` (audio.py:40-65). -/
def sourceWav (F : File) (c : Call) (w : Import.Wav) : File × Res Rate :=
  let width := (w.bits + 7) / 8
  if width ≠ 2 ∧ width ≠ 3 then (F, .error .valueError)
  else if w.channels * width = 0 then (F, .error .zeroDivision)
  else
    let rate := orRate c.rate ⟨w.rate, 1⟩
    let slotRate := if rate.num = 0 then ⟨25, 1⟩ else rate
    match useTape (createEssence F c.new slotRate c.offline) c.new c.tape with
    | (F, .error e) => (F, .error e)
    | (F, .ok _) =>
      match wavData F c w rate with
      | (F, .error e) => (F, .error e)
      | (F, .ok _) => (F, .ok slotRate)

/-- The slots of a mob of the file. (Used in `masterSlot`: mobs.py:208-214, 227-234.) -/
def slotsOf (W : World) (m : Nat) : List Slot := ((W.find? fun e => e.1 = m).map (·.2)).getD []

/-- The slot of the master mob (mobs.py:208-214, 227-234). -/
def masterSlot (F : File) (c : Call) (rate : Rate) : File × Res Nat :=
  match Slots.createSlot ((slotsOf F.world c.master).map Slot.id) none with
  | .error e => (F, .error e)
  | .ok (_, i) =>
    match createSourceClip c.new (slotsOf F.world c.new) 1 none none, Walk.slotAt (slotsOf F.world c.new) 1 with
    | .ok (clip, _), .ok s =>
      ({ F with
        world := setSlots F.world c.master (· ++ [⟨i, .one ⟨F.next, s.length, .clip clip⟩⟩])
        rates := upd F.rates c.master (upd (F.rates c.master) i (some rate))
        next := F.next + 1 }, .ok i)
    | .error e, _ => (F, .error e)
    | _, .error e => (F, .error e)

/-- `import_dnxhd_essence` and `import_audio_essence` of a master mob (mobs.py:196-234): the slot id of the new slot. -/
def importInto (F : File) (c : Call) : File × Res Nat :=
  let F := { F with world := F.world ++ [(c.new, [])] }
  match (match c.input with | .dnx file => sourceDnx F c file | .wav w => sourceWav F c w) with
  | (F, .error e) => (F, .error e)
  | (F, .ok rate) => masterSlot F c rate

/-- Several imports, one after the other, whose exceptions are caught. (Made of `Call` mobs.py:196, 216, `File` mobs.py:250-265, `importInto` mobs.py:196-234.) -/
def run (F : File) : List Call → File × List (Res Nat)
  | [] => (F, [])
  | c :: cs => ((run (importInto F c).1 cs).1, (importInto F c).2 :: (run (importInto F c).1 cs).2)

end Verif.MasterImport
