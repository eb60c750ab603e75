import Verif.Model.Sequence
/-!
# Following a source clip (`/repo/src/aaf2/components.py` 121-231, `/repo/src/aaf2/mobs.py` 83-87, 131-148)

Mobs are numbers (their mob ids, 0 for the null id).  `id` names an object.  The properties that the constructors set
(`StartTime`, `SourceID`, `SourceMobSlotID`, `Length`) are there.  The depth of the calls is bounded by `fuel` instead of Python's limit, and the line that
prints an `AttributeError` (components.py:207-208) is left out: nothing in `component_at_time` raises one.
-/
namespace Verif.Walk
open Verif.Sequence (Comp indexAtTime seqLength)

/-- What a `SourceClip` refers to (components.py:131-191). -/
structure Clip where
  mob : Nat
  slot : Nat
  start : Int
  deriving DecidableEq

/-- What `walk` distinguishes (components.py:200-231); `other` are segments of other classes, and a sequence inside a sequence. -/
inductive Kind where
  | clip (c : Clip)
  | trans
  | filler
  | group
  | operation
  | pulldown
  | other
  deriving DecidableEq

/-- A component (components.py:15-47). -/
structure Obj where
  id : Nat
  len : Int
  kind : Kind
  deriving DecidableEq

/-- How `Sequence` sees a component (components.py:94-118). -/
def Obj.comp (o : Obj) : Comp := ⟨decide (o.kind = .trans), o.len⟩

/-- The segment of a slot: a sequence or another segment (components.py:69-81). -/
inductive Segment where
  | one (o : Obj)
  | sequence (comps : List Obj)
  deriving DecidableEq

/-- `MobSlot` (mobslots.py:15-61). -/
structure Slot where
  id : Nat
  segment : Segment
  deriving DecidableEq

/-- `content.mobs`, with the slots of each mob. (Used in `mobOf`: components.py:151-156.) -/
abbrev World := List (Nat × List Slot)

/-- `SourceReference.mob` (components.py:151-156). -/
def mobOf (W : World) (m : Nat) : Option (List Slot) :=
  if m = 0 then none else (W.find? fun e => e.1 = m).map (·.2)

/-- `slot_at` (mobs.py:83-87). -/
def slotAt (l : List Slot) (i : Nat) : Res Slot :=
  match l.find? fun s => s.id = i with
  | some s => .ok s
  | none => .error .indexError

/-- `SourceReference.slot` (components.py:162-168). -/
def slotOf (W : World) (c : Clip) : Res (Option Slot) :=
  match mobOf W c.mob with
  | none => .ok none
  | some l =>
    match slotAt l c.slot with
    | .error e => .error e
    | .ok s => .ok (some s)

/-- `component_at_time` (components.py:83-84), with the objects. -/
def componentAt (l : List Obj) (t : Int) : Res Obj :=
  match indexAtTime (l.map Obj.comp) t with
  | none => .error .typeError
  | some i =>
    match l[i]? with
    | none => .error .indexError
    | some o => .ok o

/-- How the generator ended; `more` if the fuel ended before. (Used in `walk`: components.py:194-231.) -/
inductive Ended where
  | done
  | raised (e : Err)
  | more
  deriving DecidableEq

/-- `walk` (components.py:194-231): the objects that are yielded. -/
def walk (W : World) : Nat → Clip → List Obj × Ended
  | 0, _ => ([], .more)
  | n + 1, c =>
    match slotOf W c with
    | .error e => ([], .raised e)
    | .ok none => ([], .done)
    | .ok (some s) =>
      match s.segment with
      | .one o =>
        match o.kind with
        | .clip c' => (o :: (walk W n c').1, (walk W n c').2)
        | .filler | .group | .operation | .pulldown => ([o], .done)
        | .trans | .other => ([], .raised .notImplemented)
      | .sequence comps =>
        match componentAt comps c.start with
        | .error e => ([], .raised e)
        | .ok o =>
          match o.kind with
          | .clip c' => (o :: (walk W n c').1, (walk W n c').2)
          | _ => ([], .raised .notImplemented)

/-- `TimelineMobSlot.length` (mobslots.py:122-141); nested scopes are in C38. -/
def Slot.length (s : Slot) : Int :=
  match s.segment with
  | .one o => o.len
  | .sequence comps => seqLength (comps.map Obj.comp)

/-- `create_source_clip` (mobs.py:133-148) of the mob `m` with the slots `l`: the clip and its length. -/
def createSourceClip (m : Nat) (l : List Slot) (i : Nat) (start length : Option Int) : Res (Clip × Int) :=
  match slotAt l i with
  | .error e => .error e
  | .ok s =>
    let st := start.getD 0
    let len := length.getD 0
    .ok (⟨m, s.id, st⟩, if len ≠ 0 then len else max (s.length - st) 0)

end Verif.Walk
