import Verif.Spec.Shelf
import Verif.Spec.ObjectStore
import Verif.Spec.ObjectGraph
import Verif.Model.ObjectReader
/-!
# Specification: the objects of a program in the bytes of a file

The calls on the container that a program made, with property names, class ids and keys as bytes, what they
answer, and the listing of the objects that the program has.
-/
namespace Verif.Store
open Verif.Graph (Nm Place Act Shelf Rec SPrp Key Pid Oid)
open Verif.Spec.Objects (Thing Val)

/-- How classes, keys and properties are named in the file.  Class 0 has no id, 1 is the root.  A key is the value `kb` of
the unique property `kpid`; `setKey` and `setSize` are the property and the size for the members of a set. -/
structure Coding where
  names : Nat → Text
  cid : Nat → Bytes
  kb : Key → Bytes
  kpid : Key → Nat
  setKey : Pid → Nat
  setSize : Pid → Nat

structure Coding.Ok (C : Coding) : Prop where
  names : NamesOk C.names
  cid : ∀ c, (C.cid c).length = 16
  none : C.cid 0 = List.replicate 16 0
  root : C.cid 1 = empty.cls []
  kb : ∀ a b, C.kpid a = C.kpid b → C.kb a = C.kb b → a = b
  kpid : ∀ k, C.kpid k < 65536
  setKey : ∀ pid, C.setKey pid < 65536
  setSize : ∀ pid, C.setSize pid = 16 ∨ C.setSize pid = 32

/-- A property in the file. -/
def Coding.item (C : Coding) (pid : Pid) : SPrp → Item
  | .data b => ⟨pid, 0x82, .data b⟩
  | .one => ⟨pid, 0x22, .one (Names.single (C.names pid) pid)⟩
  | .vec refs next => ⟨pid, 0x32, .vec (Names.indexName (C.names pid) pid) ⟨refs, next, 0xffffffff⟩⟩
  | .set refs next => ⟨pid, 0x3A, .set (Names.indexName (C.names pid) pid)
      ⟨refs.map fun k => (C.kb k.1, k.2), next, 0xffffffff, C.setKey pid, C.setSize pid⟩⟩

/-- The unique key is a property. -/
def Coding.keyItem (C : Coding) : Option Key → List Item
  | none => []
  | some k => [⟨C.kpid k, 0x82, .data (C.kb k)⟩]

/-- The properties of an object. -/
def Coding.items (C : Coding) (r : Rec) : List Item :=
  C.keyItem r.key ++ r.pids.filterMap fun pid => (r.prp pid).map (C.item pid)

/-- The calls on the container. -/
def Coding.calls (C : Coding) : Act → List Call
  | .makeDir p nm => [.makeDir p nm]
  | .setCls p c => [.setClass p (C.cid c)]
  | .write p r => [.write p (C.items r)]
  | .read p _ _ => [.getClass p, .read p]
  | .reopen => [.reopen]

/-- The properties in a storage. -/
def Coding.itemsAt (C : Coding) (s : Shelf) (p : Place) : List Item :=
  match s.recs p with
  | some r => C.items r
  | none => []

/-- What the calls answer. -/
def Coding.answers (C : Coding) : Shelf → List Act → List (Res SOut)
  | _, [] => []
  | s, .read p c r :: l => .ok (.cls (clsOut (C.cid (s.cls p)))) :: .ok (.items (C.itemsAt s p)) :: C.answers ((Act.read p c r).apply s) l
  | s, a :: l => .ok .unit :: C.answers (a.apply s) l

/-- Sizes fit the formats. -/
def Coding.Fits (C : Coding) (pid : Pid) : SPrp → Prop
  | .data b => b.length < 65536
  | .one => True
  | .vec refs next => refs.length < 2 ^ 32 ∧ (∀ k ∈ refs, k < 2 ^ 32) ∧ next < 2 ^ 32
  | .set refs next => refs.length < 2 ^ 32 ∧ (∀ k ∈ refs, k.2 < 2 ^ 32 ∧ C.kpid k.1 = C.setKey pid ∧ (C.kb k.1).length = C.setSize pid) ∧ next < 2 ^ 32

def Coding.FitsAct (C : Coding) : Act → Prop
  | .makeDir _ nm => NmOk nm
  | .write _ r => r.pids.length + 1 < 65536 ∧ (∀ pid ∈ r.pids, pid < 65536 ∧ ∀ s, r.prp pid = some s → C.Fits pid s) ∧
      ∀ k, r.key = some k → C.kpid k ∉ r.pids ∧ (C.kb k).length < 65536
  | _ => True

/-! ## The listing -/

/-- A value. -/
def Coding.shape (C : Coding) : Val → Shape
  | .data b => .data b
  | .one _ => .one
  | .list l => .list l.length
  | .dict d => .dict (d.map fun e => C.kb e.1)

/-- The properties of an object. -/
def Coding.props (C : Coding) (t : Thing) : List (Nat × Shape) :=
  (match t.key with
    | none => []
    | some k => [(C.kpid k, .data (C.kb k))]) ++
  t.names.filterMap fun pid => (t.val pid).map fun v => (pid, C.shape v)

/-- The objects in the properties, in order. -/
def kids (t : Thing) : List Oid := t.names.flatMap fun pid => ((t.val pid).map Val.refs).getD []

/-- An object and all that is below it, down to a depth. -/
def Coding.listing (C : Coding) (t : Oid → Thing) : Nat → Oid → List Line
  | 0, _ => [.cut]
  | n + 1, o => .obj (clsOut (C.cid (t o).cls)) (C.props (t o)) :: (kids (t o)).flatMap (C.listing t n)

end Verif.Store
