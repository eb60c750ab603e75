import Verif.Model.Bytes
/-!
# Slots of a mob (`/repo/src/aaf2/mobs.py` 83-105, `/repo/src/aaf2/mobslots.py`)

A mob is represented by the list of the slot ids of its slots, in order.  Slot ids are unsigned
(type UInt32, model/classdefs.py:383); the refusal of ids beyond 32 bits when the property is
encoded is C06 and left out here.
-/
namespace Verif.Slots

/-- The loop of `create_timeline_slot` (mobs.py:97-99) over `enumerate(slots + [None], start)`: it
does not stop at the first difference, so the last one is kept. -/
def lastDiff : Nat → List (Option Nat) → Option Nat → Option Nat
  | _, [], r => r
  | i, e :: es, r => lastDiff (i + 1) es (if some i ≠ e then some i else r)

/-- The automatic slot id (mobs.py:90-99). -/
def autoId (slots : List Nat) : Option Nat :=
  let s := slots.mergeSort (fun a b => decide (a ≤ b))
  let start := if s.head? = some 0 then 0 else 1
  lastDiff start (s.map some ++ [none]) none

/-- `create_timeline_slot` (mobs.py:89-105): the new list of slot ids and the id of the new slot. -/
def createSlot (slots : List Nat) (slotId : Option Nat) : Res (List Nat × Nat) :=
  match slotId with
  | none =>
    match autoId slots with
    | none => .error .unboundLocal
    | some i => .ok (slots ++ [i], i)
  | some i => if i ∈ slots then .error .valueError else .ok (slots ++ [i], i)

/-- `slot_at` (mobs.py:83-87): the index of the first slot with the id. -/
def slotAt (slots : List Nat) (slotId : Nat) : Res Nat :=
  match slots.findIdx? (· == slotId) with
  | some i => .ok i
  | none => .error .indexError

/-- Several `create_timeline_slot(edit_rate)` calls without an id. (Made of `createSlot` mobs.py:89-105.) -/
def createMany : Nat → List Nat → Res (List Nat)
  | 0, l => .ok l
  | n + 1, l => do
    let (l, _) ← createSlot l none
    createMany n l

end Verif.Slots
