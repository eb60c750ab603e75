import Verif.Spec.ObjectGraph
/-!
# What an object looks like

An object as a value: its key, class and properties, and the same of all the objects in them down to
some depth; nothing about who the objects are.
-/
namespace Verif.Spec.Objects
open Verif.Graph (Oid Key Pid)

mutual
/-- An object, or what is below the depth. -/
inductive Look where
  | deep
  | obj (key : Option Key) (cls : Nat) (props : List (Pid × Option LookVal))

inductive LookVal where
  | data (b : Bytes)
  | one (l : Look)
  | list (l : List Look)
  | dict (d : List (Key × Look))
end

/-- A value when objects look like `f`. -/
def lookVal (f : Oid → Look) : Val → LookVal
  | .data b => .data b
  | .one c => .one (f c)
  | .list l => .list (l.map f)
  | .dict d => .dict (d.map fun e => (e.1, f e.2))

/-- What `o` looks like down to the depth `n`, its properties in order; property ids are translated by
`tr`, which may depend on the class. -/
def lookBy (tr : Nat → Pid → Pid) (t : Oid → Thing) : Nat → Oid → Look
  | 0, _ => .deep
  | n + 1, o => .obj (t o).key (t o).cls ((t o).names.map fun p => (tr (t o).cls p, ((t o).val p).map (lookVal (lookBy tr t n))))

/-- What `o` looks like. -/
def look : (Oid → Thing) → Nat → Oid → Look := lookBy fun _ p => p

end Verif.Spec.Objects
