import Verif.Model.GraphCopy
/-!
# Copying objects into another file

`/repo/src/aaf2/core.py` 249-280, `properties.py` 138-141, 315-328, 423-449, 713-737, where the file of
the copy is another one.

Simplifications: as in `Model/Graph`.  `register_external_classdef` (core.py:258-262) makes the class
known in the other file, with the pids `tr` there (C35).  Weak references and streams are not there.
-/
namespace Verif.Graph

/-- The two files. (Used in `M2`: properties.py:327, 445-447, 732-735.) -/
structure Pair where
  src : World
  dst : World

/-- A computation on both that may raise. (Used in `copyToStep`: properties.py:327, 445-447, 732-735.) -/
def M2 (α : Type) := Pair → Res α × Pair

instance : Monad M2 where
  pure a := fun s => (.ok a, s)
  bind m f := fun s =>
    match m s with
    | (.ok a, s) => f a s
    | (.error e, s) => (.error e, s)

/-- `raise`. (Used in `copyToStep`: properties.py:327, 445-447, 732-735.) -/
def raise2 {α : Type} (e : Err) : M2 α := fun s => (.error e, s)

/-- A call on an object of the first file. (Used in `copyToStep`: properties.py:327, 445-447, 732-735.) -/
def onSrc {α : Type} (m : M α) : M2 α := fun s => ((m s.src).1, { s with src := (m s.src).2 })

/-- A call on an object of the second file. (Used in `copyToStep`: properties.py:327, 445-447, 732-735.) -/
def onDst {α : Type} (m : M α) : M2 α := fun s => ((m s.dst).1, { s with dst := (m s.dst).2 })

/-- `for x in l: f(x)`. (Used in `copyPropTo`: core.py:271-278.) -/
def each2 {α : Type} : List α → (α → M2 Unit) → M2 Unit
  | [], _ => pure ()
  | a :: l, f => do f a; each2 l f

/-- `property_entries[pid] = p`, where `p` is there already if it had a member. (Used in `copyPropTo`: core.py:271-278.) -/
def ensure (n : Oid) (pid : Pid) (p : Prp) : M Unit := do
  match ← entry n pid with
  | none => add n pid p
  | some _ => pure ()

/-- One turn: a member is read, copied and given to the new property (properties.py:327, 445-447,
732-735). -/
def copyToStep (go : Oid → M2 Oid) (get : M (Option Oid)) (give : Oid → M Unit) : M2 Unit := do
  match ← onSrc get with
  | none => raise2 .attributeError
  | some c => do
    let d ← go c
    onDst (give d)

/-- `new_obj.property_entries[pid] = p.copy(new_obj, pid)` in another file, `n` is the new object and
`q` the pid there (core.py:271-278, properties.py:138-141, 315-328, 423-449, 713-737). -/
def copyPropTo (go : Oid → M2 Oid) (o n : Oid) (pid q : Pid) : M2 Unit := do
  match ← onSrc (entry o pid) with
  | none => pure ()
  | some (.data b) => onDst (add n q (.data b))
  | some (.one _) => copyToStep go (oneGet o pid) (oneSet n q)
  | some (.vec v) => do
    each2 (List.range v.refs.length) fun i => copyToStep go (vecGet o pid i) fun d => vecExtend n q [d]
    onDst (ensure n q (.vec .empty))
  | some (.set v) => do
    each2 v.refs fun k => copyToStep go (setGet o pid k.1) fun d => setExtend n q [d]
    onDst (ensure n q (.set .empty))

/-- `obj.copy(root=other)` (core.py:249-280).  `fuel` bounds the depth. -/
def copyObjTo (tr : Nat → Pid → Pid) : Nat → Oid → M2 Oid
  | 0, _ => raise2 .noFuel
  | fuel + 1, o => do
    let ob ← onSrc (getObj o)
    let n ← onDst (create ob.key ob.cls)
    each2 ob.pids fun pid => copyPropTo (copyObjTo tr fuel) o n pid (tr ob.cls pid)
    pure n

/-- `c = obj.copy(root=other)`. (Made of `M2` properties.py:327, 445-447, 732-735, `copyObjTo` core.py:249-280.) -/
def copyToCall (tr : Nat → Pid → Pid) (o : Oid) : M2 Ans := do
  let n ← onSrc enough
  let d ← copyObjTo tr n o
  onDst (keep [d])
  pure (.obj d)

end Verif.Graph
