import Verif.Model.Bytes
/-!
# Sequences of components (`/repo/src/aaf2/components.py` 82-118, `/repo/src/aaf2/mobslots.py` 122-141)

A component is represented by its length and whether it is a `Transition`; lengths are Python
integers.  Objects are always true in a condition (`AAFObject` has no `__len__` or `__bool__`).
-/
namespace Verif.Sequence

/-- A component as `Sequence` sees it (components.py:15-47, 56-66). -/
structure Comp where
  trans : Bool
  len : Int
  deriving DecidableEq, Repr

/-- `positions` (components.py:109-118), from the index `i` and the running `length`. -/
def positionsFrom : Nat → Int → List Comp → List (Nat × Int × Comp)
  | _, _, [] => []
  | i, a, c :: r =>
    if c.trans then (i, a - c.len, c) :: positionsFrom (i + 1) (a - c.len) r
    else (i, a, c) :: positionsFrom (i + 1) (a + c.len) r

/-- `positions` (components.py:109-118). -/
def positions (l : List Comp) : List (Nat × Int × Comp) := positionsFrom 0 0 l

/-- The loop of `index_at_time` (components.py:94-105). -/
def indexLoop (t : Int) : Option Nat → List (Nat × Int × Comp) → Option Nat
  | last, [] => last
  | last, (i, p, c) :: r =>
    if c.trans ∧ p ≤ t ∧ t < p + c.len then some i
    else if last.isSome ∧ p ≥ t then last
    else indexLoop t (some i) r

/-- `index_at_time` (components.py:86-107). -/
def indexAtTime (l : List Comp) (t : Int) : Option Nat :=
  if t ≤ 0 then some 0 else indexLoop t none (positions l)

/-- `component_at_time` (components.py:83-84); indexing a vector with `None` raises `TypeError`. -/
def componentAtTime (l : List Comp) (t : Int) : Res Comp :=
  match indexAtTime l t with
  | none => .error .typeError
  | some i =>
    match l[i]? with
    | none => .error .indexError
    | some c => .ok c

/-- `TimelineMobSlot.length` for a sequence (mobslots.py:126-133). -/
def seqLength (l : List Comp) : Int :=
  l.foldl (fun a c => if c.trans then a - c.len else a + c.len) 0

/-- `TimelineMobSlot.length` for a nested scope (mobslots.py:135-139): the result of `max` is
dropped. -/
def nestedLength (slots : List Int) : Int :=
  slots.foldl (fun a _ => a) 0

end Verif.Sequence
