import Verif.Spec.ObjectGraph
import Verif.Model.WeakRef
/-!
# What weak references mean

A weak reference is the key of an object.  Reading it gives the object that now has this key in the
collection that the definition of the property names by a path from the root.  Nothing here knows about
tables, indices or bytes: only the calls and the definitions are taken from the model.
-/
namespace Verif.Spec.Weak
open Verif.Graph (Oid Key Pid Call Ans)
open Verif.Weak (Defs WCall)
open Verif.Spec.Objects (Val Thing)

/-- The weak references of all objects: the keys. -/
abbrev Refs := Oid → Pid → Option (List Key)

/-- Everything a program can see: `kept` are the weak references that the file has. -/
structure State where
  objs : Objects.State
  refs : Refs
  kept : Option Refs

/-- The object with the key `k` in the collection at the end of a path; nothing is said where the path leads
to something that is no object or no collection. -/
def find (t : Oid → Thing) (k : Key) : Oid → List Pid → Option (Res Oid)
  | _, [] => none
  | o, [p] =>
    match (t o).val p with
    | none => some (.error .keyError)
    | some (.dict d) =>
      match d.lookup k with
      | some c => some (.ok c)
      | none => some (.error .keyError)
    | _ => none
  | o, p :: q :: r =>
    match (t o).val p with
    | none => some (.error .keyError)
    | some (.one c) => find t k c (q :: r)
    | _ => none

/-- All of them, or what is raised by the first that is not there. -/
def findAll (t : Oid → Thing) (path : List Pid) : List Key → Option (Res (List Oid))
  | [] => some (.ok [])
  | k :: l =>
    match find t k 0 path with
    | none => none
    | some (.error e) => some (.error e)
    | some (.ok c) =>
      match findAll t path l with
      | none => none
      | some (.error e) => some (.error e)
      | some (.ok cs) => some (.ok (c :: cs))

/-- A key of 16 bytes, or one of 32 bytes. -/
def KeySize (n : Nat) (k : Key) : Prop := n = 16 ∧ k < 2 ^ 128 ∨ n = 32 ∧ 2 ^ 128 ≤ k ∧ k < 2 ^ 128 + 2 ^ 256

/-- What a call answers, the objects it returns and the references it sets. -/
abbrev Meaning := Option (Res Ans × List Oid × Option (Oid × Pid × List Key))

def refuse (e : Err) : Meaning := some (.error e, [], none)

def writes (o : Oid) (pid : Pid) (ks : List Key) : Meaning := some (.ok .none, [], some (o, pid, ks))

/-- Answer with an object. -/
def object : Option (Res Oid) → Meaning
  | none => none
  | some (.ok c) => some (.ok (.obj c), [c], none)
  | some (.error e) => refuse e

def objects : Option (Res (List Oid)) → Meaning
  | none => none
  | some (.ok l) => some (.ok (.objs l), l, none)
  | some (.error e) => refuse e

/-- The references in a property: a missing array has none. -/
def refsOf : Option (List Key) → List Key
  | none => []
  | some l => l

open Classical in
/-- The keys of objects in variables, all of the size of the property. -/
noncomputable def keys (D : Defs) (S : Objects.State) (pid : Pid) (vs : List Oid) : Option (List Key) :=
  match Objects.keyed S.thing vs with
  | none => none
  | some e => if (∀ v ∈ vs, v ∈ S.held) ∧ ∀ x ∈ e, KeySize (D.keySize pid) x.1 then some (e.map (·.1)) else none

open Classical in
/-- What a call on weak references means; `none` where nothing is promised. -/
noncomputable def meaning (D : Defs) (W : State) : WCall → Meaning
  | .on _ => none
  | .get o pid =>
    if o ∈ W.objs.held ∧ D.kind pid = some .one then
      match W.refs o pid with
      | none => refuse .typeError
      | some [k] => object (find W.objs.thing k 0 (D.path pid))
      | _ => none
    else none
  | .set o pid v =>
    if o ∈ W.objs.held ∧ v ∈ W.objs.held ∧ D.kind pid = some .one then
      if W.objs.ro then refuse .propertyError
      else match (W.objs.thing v).key with
        | none => refuse .propertyError
        | some k => if KeySize 16 k ∨ KeySize 32 k then writes o pid [k] else none
    else none
  | .items o pid =>
    if o ∈ W.objs.held ∧ D.kind pid = some .many then
      objects (findAll W.objs.thing (D.path pid) (refsOf (W.refs o pid)))
    else none
  | .len o pid =>
    if o ∈ W.objs.held ∧ D.kind pid = some .many then some (.ok (.num (refsOf (W.refs o pid)).length), [], none)
    else none
  | .has o pid k =>
    if o ∈ W.objs.held ∧ D.kind pid = some .many then
      some (.ok (.flag (decide (k ∈ refsOf (W.refs o pid)))), [], none)
    else none
  | .item o pid k =>
    if o ∈ W.objs.held ∧ D.kind pid = some .many then
      if k ∈ refsOf (W.refs o pid) then object (find W.objs.thing k 0 (D.path pid)) else refuse .keyError
    else none
  | .extend o pid vs =>
    if o ∈ W.objs.held ∧ D.kind pid = some .many then
      if W.objs.ro then refuse .propertyError
      else match keys D W.objs pid vs with
        | none => none
        | some ks =>
          if (refsOf (W.refs o pid) ++ ks).length < 2 ^ 32 then writes o pid (refsOf (W.refs o pid) ++ ks) else none
    else none
  | .clear o pid =>
    if o ∈ W.objs.held ∧ D.kind pid = some .many then
      if W.objs.ro then refuse .propertyError
      else match W.refs o pid with
        | none => some (.ok .none, [], none)
        | some _ => writes o pid []
    else none
  | .assign o pid vs =>
    if o ∈ W.objs.held ∧ D.kind pid = some .many then
      if W.objs.ro then refuse .propertyError
      else match keys D W.objs pid vs with
        | none => none
        | some ks => if ks.length < 2 ^ 32 then writes o pid ks else none
    else none

/-- `refs` with one property changed. -/
def Refs.put (R : Refs) (o : Oid) (pid : Pid) (v : Option (List Key)) : Refs :=
  fun x p => if x = o ∧ p = pid then v else R x p

/-- The weak references that the file has after `save`. -/
def State.saved (W : State) : Option Refs := if W.objs.ro then W.kept else some W.refs

/-- The weak references after another call. -/
def State.after (W : State) (c : Call) (r : Res Ans) : Refs × Option Refs :=
  match c, r with
  | .create _ _, _ => (fun x p => if x = W.objs.next then none else W.refs x p, W.kept)
  | .drop o pid, .ok _ => (W.refs.put o pid none, W.kept)
  | .delete o pid, .ok _ => (W.refs.put o pid none, W.kept)
  | .save, _ => (W.refs, W.saved)
  | .reopen _, _ => (W.saved.getD W.refs, W.saved)
  | .abort _, _ => (W.kept.getD W.refs, W.kept)
  | _, _ => (W.refs, W.kept)

/-- The property that a call is about. -/
def about : Call → Option Pid
  | .getData _ p | .setData _ p _ | .oneGet _ p | .oneSet _ p _ | .oneSwap _ p _ | .oneTake _ p
  | .vecItems _ p | .vecLen _ p | .vecAt _ p _ | .vecExtend _ p _ | .vecSet _ p _ _ | .vecClear _ p
  | .vecPop _ p _ | .vecInsert _ p _ _ | .vecAssign _ p _ | .setItems _ p | .setKeys _ p | .setLen _ p
  | .setHas _ p _ | .setGet _ p _ | .setExtend _ p _ | .setSwap _ p _ | .setClear _ p | .setPop _ p _
  | .setAssign _ p _ | .rekey _ p _ _ => some p
  | _ => none

/-- The call is not about a weak reference, but it may remove one. -/
def Plain (D : Defs) (c : Call) : Prop := ∀ p, about c = some p → D.kind p = none

/-- What a call may do. -/
def Step (D : Defs) (W : State) (c : WCall) (r : Res Ans) (W' : State) : Prop :=
  match c with
  | .on c => Plain D c ∧ ∃ S', Objects.Step W.objs c r S' ∧ W' = ⟨S', (W.after c r).1, (W.after c r).2⟩
  | c => ∃ l u, meaning D W c = some (r, l, u) ∧
    match u with
    | none => W' = { W with objs := W.objs.hold l }
    | some (o, pid, ks) => ∃ b, W' = ⟨W.objs.set o pid (some (.data b)), W.refs.put o pid (some ks), W.kept⟩

/-- Something is promised of a call. -/
def Says (D : Defs) (W : State) (c : WCall) : Prop := ∃ r W', Step D W c r W'

/-- A history of calls with their answers. -/
inductive Runs (D : Defs) : State → List WCall → List (Res Ans) → State → Prop
  | nil {W : State} : Runs D W [] [] W
  | cons {W W' W'' : State} {c : WCall} {cs : List WCall} {r : Res Ans} {rs : List (Res Ans)} :
    Step D W c r W' → Runs D W' cs rs W'' → Runs D W (c :: cs) (r :: rs) W''

/-- A new file. -/
def State.new : State := ⟨.new, fun _ _ => none, none⟩

/-- The definitions can be stored: fewer than `2 ** 16` different paths, of property ids that fit 16 bits. -/
structure Sound (D : Defs) (paths : List (List Pid)) : Prop where
  known : ∀ pid, D.kind pid ≠ none → D.path pid ∈ paths
  few : paths.length < 2 ^ 16
  pids : ∀ p ∈ paths, p.length < 2 ^ 15 ∧ ∀ x ∈ p, x ≠ 0 ∧ x < 2 ^ 16
  keyPid : ∀ pid, D.kind pid ≠ none → D.keyPid pid < 2 ^ 16
  keySize : ∀ pid, D.kind pid = some .many → D.keySize pid = 16 ∨ D.keySize pid = 32

end Verif.Spec.Weak
