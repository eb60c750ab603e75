import Verif.Model.ObjectStore
/-!
# Walking the objects of a file

`AAFObject.walk_references` (`/repo/src/aaf2/core.py` 218-247) over objects that come from the bytes:
`AAFObjectManager.read_object` (`file.py` 101-130) reads the class id and the properties of a storage, the
strong references of the properties give the storages of further objects (`properties.py` 338-348, 509-536,
811-840).

Simplifications: an object is read when it is visited, in the code when the list of references is made;
the cache of objects by path is left out; `depth` bounds the recursion.
-/
namespace Verif.Store
open Verif.Rb (Name)
open Verif.Volume

/-- The value of a property as a program sees it: for references the number of objects, or their keys. (Used in `Body.shape`: properties.py:1266-1291.) -/
inductive Shape where
  | data (b : Bytes)
  | one
  | list (n : Nat)
  | dict (keys : List Bytes)
  | stream
  | weak (key : Bytes)
  | weaks (keys : List Bytes)
  deriving DecidableEq

/-- An object of the walk, with its class id and its properties; `cut` is an object below the depth. (Used in `walkKids`: core.py:242-244.) -/
inductive Line where
  | cut
  | obj (cls : Option Bytes) (props : List (Nat × Shape))
  deriving DecidableEq

/-- The value of a property (properties.py:1266-1291). -/
def Body.shape : Body → Shape
  | .data b => .data b
  | .weak w => .weak w.ref
  | .stream _ => .stream
  | .one _ => .one
  | .vec _ ix => .list ix.references.length
  | .set _ ix => .dict (ix.references.map (·.1))
  | .weaks _ ix => .weaks ix.references

/-- `"%s{%x}" % (self.index_name, key)` (properties.py:506-507, 808-809). -/
def refName (n : Name) (key : Nat) : Name := n ++ ['{'] ++ toHex key ++ ['}']

/-- The storages of the objects of a property; whether there may be none (properties.py:338-348,
509-529, 811-822).  `StrongRefProperty.value` gives `None` if there is no such storage. -/
def Body.kids (dir : Name) : Body → List (Bool × Name)
  | .one n => [(true, join dir n)]
  | .vec n ix => ix.references.map fun k => (false, join dir (refName n k))
  | .set n ix => ix.references.map fun k => (false, join dir (refName n k.2))
  | _ => []

/-- `for obj in refs` (core.py:242-244).  `dir.get(ref)` of a missing storage is `None`, and `read_object`
of `None` raises (file.py:101-116). -/
def walkKids (up : Name → Name) (go : Vol → Name → Res (Res (List Line) × Vol)) :
    Vol → List (Bool × Name) → Res (Res (List Line) × Vol)
  | v, [] => .ok (.ok [], v)
  | v, (opt, path) :: r => do
    let (x, v) ← dirCall up v (.find path)
    match x with
    | .error e => .ok (.error e, v)
    | .ok (.ent (some _)) => do
      let (a, v) ← go v path
      match a with
      | .error e => .ok (.error e, v)
      | .ok a => do
        let (b, v) ← walkKids up go v r
        .ok (do .ok (a ++ (← b)), v)
    | .ok _ => if opt then walkKids up go v r else .ok (.error .attributeError, v)

/-- `walk_references` of the object in a storage (core.py:218-247, file.py:101-130). -/
def walk (up : Name → Name) : Nat → Vol → Name → Res (Res (List Line) × Vol)
  | 0, v, _ => .ok (.ok [.cut], v)
  | depth + 1, v, dir => do
    let (c, v) ← getClass up v dir
    match c with
    | .error e => .ok (.error e, v)
    | .ok c => do
      let (x, v) ← readProperties up v dir
      match x with
      | .error e => .ok (.error e, v)
      | .ok items => do
        let (a, v) ← walkKids up (walk up depth) v (items.flatMap fun i => i.body.kids dir)
        .ok (do .ok (.obj c (items.map fun i => (i.pid, i.body.shape)) :: (← a)), v)

end Verif.Store
