import Verif.Model.Graph
/-!
# Copying objects

`/repo/src/aaf2/core.py` 249-280 and the `copy` methods in `properties.py` 138-141, 315-328, 423-448,
713-737.

Simplifications, beside those of `Model/Graph`: weak references and streams are not there; no
storage is given (`new_dir` is `None`), as in all calls that the library and its tests make.
-/
namespace Verif.Graph

/-- `[f(x) for x in l]`. (Used in `copyProp`: core.py:271-278.) -/
def gather {α : Type} : List α → (α → M Oid) → M (List Oid)
  | [], _ => pure []
  | a :: l, f => do
    let x ← f a
    let y ← gather l f
    pure (x :: y)

/-! ## Within a file -/

/-- One turn of `StrongRefVectorProperty.copy` in the same file (properties.py:434-443).
`index_ref_name` takes an index and is given a local key (properties.py:435, 508-509). -/
def copyVecStep (go : Oid → M Oid) (o : Oid) (pid : Pid) (v : VecP) (i : Nat) : M Oid := do
  match ← vecGet o pid i with
  | none => raise .attributeError
  | some c =>
    match (v.refs[i]?).bind (v.refs[·]?) with
    | none => raise .indexError
    | some _ => go c

/-- One turn of `StrongRefSetProperty.copy` in the same file (properties.py:724-731). -/
def copySetStep (go : Oid → M Oid) (o : Oid) (pid : Pid) (k : Key × Nat) : M Oid := do
  match ← setGet o pid k.1 with
  | none => raise .attributeError
  | some c => go c

/-- `new_obj.property_entries[pid] = p.copy(new_obj, pid)` in the same file, `n` is the new object
(core.py:271-278, properties.py:138-141, 315-328, 423-443, 713-731).  The dictionary of objects is
made at the end and not object by object, which makes a difference only if a copy raises. -/
def copyProp (go : Oid → M Oid) (o n : Oid) (pid : Pid) : M Unit := do
  match ← entry o pid with
  | none => pure ()
  | some (.data b) => add n pid (.data b)
  | some (.one _) => do
    match ← oneGet o pid with
    | none => raise .attributeError
    | some c => do
      let d ← go c
      add n pid (.one (some d))
  | some (.vec v) => do
    let cs ← gather (List.range v.refs.length) (copyVecStep go o pid v)
    add n pid (.vec ⟨v.refs, v.next, fun i => if 0 ≤ i then cs[i.toNat]? else none⟩)
  | some (.set v) => do
    let cs ← gather v.refs (copySetStep go o pid)
    add n pid (.set ⟨v.refs, v.next, fun k => ((v.refs.map (·.1)).zip cs).lookup k⟩)

/-- `obj.copy()` (core.py:249-280).  `fuel` bounds the depth. -/
def copyObj : Nat → Oid → M Oid
  | 0, _ => raise .noFuel
  | fuel + 1, o => do
    let ob ← getObj o
    let n ← create ob.key ob.cls
    each ob.pids (copyProp (copyObj fuel) o n)
    pure n

/-- `c = obj.copy()`. (Made of `copyObj` core.py:249-280.) -/
def copyCall (o : Oid) : M Ans := retObj do
  let n ← enough
  copyObj n o

end Verif.Graph
