import Verif.Model.Bytes
/-!
# Keyframes of a varying value (`/repo/src/aaf2/misc.py` 227-250 and 332-350)

The point list is a list of pairs (time, value).  Times are elements of any type with a comparison.
Simplification: in the code a time is a rational stored as two 32-bit integers and compared as a
`float`; here a time is compared exactly.  The list operations of the vector property (`insert`,
item assignment, `append`) are those of a Python list; see C32.
-/
namespace Verif.Keyframes

/-- The loop of `nearest_index` (misc.py:337-350), with `start = s` and `end = e`. -/
def nearestLoop {T : Type} (lt : T → T → Bool) (times : List T) (t : T) (s e : Int) : Res Nat :=
  if e < s then .ok (max 0 e).toNat
  else
    match times[((s + e) / 2).toNat]? with
    | none => .error .indexError
    | some p =>
      if lt p t then nearestLoop lt times t ((s + e) / 2 + 1) e
      else if lt t p then nearestLoop lt times t s ((s + e) / 2 - 1)
      else .ok ((s + e) / 2).toNat
termination_by (e + 1 - s).toNat
decreasing_by all_goals omega

/-- `nearest_index` (misc.py:332-350). -/
def nearestIndex {T : Type} (lt : T → T → Bool) (times : List T) (t : T) : Res Nat :=
  nearestLoop lt times t 0 (times.length - 1)

/-- Python's `list.insert(i, x)` for `0 ≤ i`. (Used in `addKeyframe`: misc.py:227-250.) -/
def insertAt {α : Type} (l : List α) (i : Nat) (x : α) : List α := l.take i ++ x :: l.drop i

/-- `add_keyframe` (misc.py:227-250) on the point list. -/
def addKeyframe {T V : Type} [DecidableEq T] (lt : T → T → Bool) (l : List (T × V)) (t : T) (v : V) :
    Res (List (T × V)) :=
  if l.length > 0 then do
    let i ← nearestIndex lt (l.map (·.1)) t
    match l[i]? with
    | none => .error .indexError
    | some n => if n.1 = t then .ok (l.set i (t, v)) else .ok (insertAt l (i + 1) (t, v))
  else .ok (l ++ [(t, v)])

/-- A history of `add_keyframe` calls. (Made of `addKeyframe` misc.py:227-250.) -/
def addAll {T V : Type} [DecidableEq T] (lt : T → T → Bool) : List (T × V) → List (T × V) →
    Res (List (T × V))
  | l, [] => .ok l
  | l, (t, v) :: r => do
    let l ← addKeyframe lt l t v
    addAll lt l r

end Verif.Keyframes
