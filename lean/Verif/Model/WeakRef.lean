import Verif.Model.Graph
import Verif.Model.PropStream
/-!
# Weak references

`WeakRefProperty` and `WeakRefArrayProperty` (`/repo/src/aaf2/properties.py` 990-1260), the table of paths
(`file.py` 205, 281-343) and the objects of `Graph`.  A weak reference is the index of a path in the table
and a unique key; reading it goes along the path from the root object to a set and takes the member with
this key.

Simplifications:

* A property is what is stored of it: for an array the content of its index stream.  The fields of the
  Python object are those that the bytes say.  (`WeakRefProperty.copy` makes them differ: see `Fields`.)
* References to class definitions and type definitions are looked up in the meta dictionary
  (properties.py:991-996) and not along a path; they are not here.
* The tests on the class of a value and on its file are left out, as in `Graph`.
-/
namespace Verif.Weak
open Verif.Graph (Oid Key Pid Prp World M Ans Call)
open Verif.PropStream (WeakRef WeakIndex)

/-- A property of one weak reference, or of several. (Used in `Defs`: properties.py:1061-1071, 1174-1180.) -/
inductive Kind where
  | one
  | many
  deriving DecidableEq

/-- What the definitions say of the properties that are weak references: `typedef.pid_path`,
`ref_classdef.unique_key_pid` and `ref_classdef.unique_key_size` (properties.py:1061-1071, 1174-1180). -/
structure Defs where
  kind : Pid → Option Kind
  path : Pid → List Pid
  keyPid : Pid → Nat
  keySize : Pid → Nat

/-- `ref.bytes_le` (properties.py:1048, 1167): the keys below `2 ** 128` are the `AUID`s, others the `MobID`s, each
numbered by its bytes. -/
def keyBytes (k : Key) : Bytes := if k < 2 ^ 128 then leN 16 k else leN 32 (k - 2 ^ 128)

/-- `AUID(bytes_le=b)` or `MobID(bytes_le=b)` by the size (properties.py:1041-1044, 1149-1152). -/
def keyOfBytes (b : Bytes) : Key := if b.length = 16 then unLe b else unLe b + 2 ^ 128

/-- An open file: its objects, `weakref_table` and the stream `referenced properties`. (Used in `newFile`: file.py:246-280.) -/
structure File where
  world : World
  table : List (List Pid)
  stored : Option Bytes

/-- A computation that may raise. (Used in `resolved`: properties.py:990-997.) -/
def FM (α : Type) := File → Res α × File

/-- Used in `walk`: file.py:281-294. -/
def FM.pure {α : Type} (a : α) : FM α := fun f => (.ok a, f)

/-- Made of `FM` properties.py:990-997. -/
def FM.bind {α β : Type} (m : FM α) (g : α → FM β) : FM β := fun f =>
  match m f with
  | (.ok a, f) => g a f
  | (.error e, f) => (.error e, f)

instance : Monad FM where
  pure := FM.pure
  bind := FM.bind

/-- Used in `walk`: file.py:281-294. -/
def raise {α : Type} (e : Err) : FM α := fun f => (.error e, f)

/-- Something about the objects only. (Used in `resolved`: properties.py:990-997.) -/
def obj {α : Type} (m : M α) : FM α := fun f => ((m f.world).1, { f with world := (m f.world).2 })

/-- A result that may be an exception. (Used in `getRef`: properties.py:1065-1067.) -/
def lift {α : Type} : Res α → FM α
  | .ok a => pure a
  | .error e => raise e

/-! ## Resolving -/

/-- `weakref_prop` and `p[ref]` (file.py:281-294), with the object reached on the way in a variable. -/
def walk (k : Key) : Oid → List Pid → M Oid
  | _, [] => Graph.raise .indexError
  | o, [p] => do
    match ← Graph.entry o p with
    | none => Graph.raise .keyError
    | some (.set _) => do
      match ← Graph.setGet o p k with
      | none => Graph.raise .keyError
      | some c => do
        Graph.keep [c]
        pure c
    | some _ => Graph.raise .typeError
  | o, p :: q :: r => do
    match ← Graph.entry o p with
    | none => Graph.raise .keyError
    | some (.one _) => do
      match ← Graph.oneGet o p with
      | none => Graph.raise .attributeError
      | some c => do
        Graph.keep [c]
        walk k c (q :: r)
    | some _ => Graph.raise .attributeError

/-- `resovle_weakref` (file.py:281-294). -/
def resolve (table : List (List Pid)) (index : Nat) (ref : Bytes) : M Oid :=
  match table[index]? with
  | none => Graph.raise .indexError
  | some path => walk (keyOfBytes ref) 0 path

/-- The variables of a method end with it; what it returns is in a variable of the program. (Used in `resolved`: properties.py:990-997.) -/
def during {α : Type} (held : α → List Oid) (m : M α) : M α := fun w =>
  match m w with
  | (.ok a, w') => (.ok a, { w' with held := held a ++ w.held })
  | (.error e, w') => (.error e, { w' with held := w.held })

/-- Each of them (properties.py:1188-1191). -/
def resolveAll (table : List (List Pid)) (index : Nat) : List Bytes → M (List Oid)
  | [] => pure []
  | r :: l => do
    let c ← resolve table index r
    let cs ← resolveAll table index l
    pure (c :: cs)

/-- `resolve_weakref` (properties.py:990-997), returned to the program. -/
def resolved (index : Nat) (ref : Bytes) : FM Ans := fun f =>
  obj (during (fun c => [c]) (resolve f.table index ref) >>= fun c => pure (.obj c)) f

/-- `[item for item in self]` (properties.py:1245-1247). -/
def resolvedAll (index : Nat) (refs : List Bytes) : FM Ans := fun f =>
  obj (during id (resolveAll f.table index refs) >>= fun l => pure (.objs l)) f

/-! ## One reference -/

/-- `decode` (properties.py:1035-1044); nothing for a property that is not there. -/
def refOf (b : Option Bytes) : Res (Option WeakRef) :=
  match b with
  | none => .ok none
  | some b => (PropStream.decWeakRef b).map some

/-- `WeakRefProperty.value` (properties.py:1065-1067).  Without a reference `weakref_index` is `None`, which is
no index of a list (file.py:286). -/
def getRef (o : Oid) (pid : Pid) : FM Ans := do
  let b ← obj (Graph.getData o pid)
  match ← lift (refOf b) with
  | none => raise .typeError
  | some r => resolved r.index r.ref

/-- `root.weakref_index(self.pid_path)` (file.py:296-304). -/
def indexFor (path : List Pid) : FM Nat := fun f =>
  (.ok (PropStream.weakrefIndex f.table path).2, { f with table := (PropStream.weakrefIndex f.table path).1 })

/-- `value.unique_key` (core.py:54-68). -/
def uniqueKey (v : Oid) : FM Key := do
  match ← obj (Graph.getObj v) with
  | ⟨_, some k, _, _, _⟩ => pure k
  | _ => raise .propertyError

/-- The decorator `writeonly` (properties.py:59-67): refused in a file that is only read.  It marks the object as
modified at the end, as `setData` does here. -/
def writable {α : Type} (m : FM α) : FM α := fun f => if f.world.ro then (.error .propertyError, f) else m f

/-- `WeakRefProperty.value = v` (properties.py:1073-1097). -/
def setRef (D : Defs) (o : Oid) (pid : Pid) (v : Oid) : FM Ans := writable do
  let b ← obj (Graph.getData o pid)
  let old ← lift (refOf b)
  let index ← (match old with
    | some r => pure r.index
    | none => indexFor (D.path pid) : FM Nat)
  let keyPid := match old with
    | some r => r.keyPid
    | none => D.keyPid pid
  let k ← uniqueKey v
  let b ← lift (PropStream.encWeakRef ⟨index, keyPid, keyBytes k⟩)
  obj (Graph.setData o pid b)
  pure .none

/-! ## Several references -/

/-- The fields of an array (properties.py:1129-1153). -/
def arrOf (b : Option Bytes) : Res (Option WeakIndex) :=
  match b with
  | none => .ok none
  | some b => (PropStream.readWeak b).map some

/-- `references` (properties.py:1102). -/
def refsOf : Option WeakIndex → List Bytes
  | none => []
  | some w => w.references

/-- The array of an object. (Used in `items`: properties.py:1188-1191, 1245-1247.) -/
def array (o : Oid) (pid : Pid) : FM (Option WeakIndex) := do
  let b ← obj (Graph.getData o pid)
  lift (arrOf b)

/-- `prop.value` and iteration (properties.py:1188-1191, 1245-1247). -/
def items (o : Oid) (pid : Pid) : FM Ans := do
  match ← array o pid with
  | none => pure (.objs [])
  | some w => resolvedAll w.index w.references

/-- `len(prop)` (properties.py:1185-1186). -/
def len (o : Oid) (pid : Pid) : FM Ans := do
  let w ← array o pid
  pure (.num (refsOf w).length)

/-- `key in prop` (properties.py:1182-1183). -/
def has (o : Oid) (pid : Pid) (k : Key) : FM Ans := do
  let w ← array o pid
  pure (.flag (decide (k ∈ (refsOf w).map keyOfBytes)))

/-- `prop[key]` (properties.py:1193-1202). -/
def item (o : Oid) (pid : Pid) (k : Key) : FM Ans := do
  match ← array o pid with
  | none => raise .keyError
  | some w =>
    if k ∈ w.references.map keyOfBytes then resolved w.index (keyBytes k) else raise .keyError

/-- `for item in values: references.append(item.unique_key)` (properties.py:1230-1231). -/
def keysOf : List Oid → FM (List Key)
  | [] => pure []
  | v :: l => do
    let k ← uniqueKey v
    let ks ← keysOf l
    pure (k :: ks)

/-- The rest of `extend` with the fields of the array at hand (properties.py:1219-1233).  If an object has no
unique key, the keys before it are in the array of the code; here they are not. -/
def extendWith (D : Defs) (o : Oid) (pid : Pid) (old : Option WeakIndex) (vs : List Oid) : FM Ans := do
  let index ← (match old with
    | some w => pure w.index
    | none => indexFor (D.path pid) : FM Nat)
  let keyPid := match old with
    | some w => w.keyPid
    | none => D.keyPid pid
  let keySize := match old with
    | some w => w.keySize
    | none => D.keySize pid
  let ks ← keysOf vs
  let b ← lift (PropStream.writeWeak ⟨refsOf old ++ ks.map keyBytes, index, keyPid, keySize⟩)
  obj (Graph.setData o pid b)
  pure .none

/-- `extend` of a list, and `append` (properties.py:1209-1236). -/
def extend (D : Defs) (o : Oid) (pid : Pid) (vs : List Oid) : FM Ans := writable do
  let w ← array o pid
  extendWith D o pid w vs

/-- `references = []` in an array that is there (properties.py:1238-1240). -/
def clear (o : Oid) (pid : Pid) : FM Ans := writable do
  match ← array o pid with
  | none => do
    obj (Graph.markModified o)
    pure .none
  | some w => do
    let b ← lift (PropStream.writeWeak { w with references := [] })
    obj (Graph.setData o pid b)
    pure .none

/-- `prop.value = vs` (properties.py:1249-1257): `clear` and `extend` of the same property object. -/
def assign (D : Defs) (o : Oid) (pid : Pid) (vs : List Oid) : FM Ans := writable do
  let _ ← clear o pid
  extend D o pid vs

/-! ## Files -/

/-- `write_reference_properties` (file.py:328-343), the content of the stream. -/
def writeTable : FM Unit := fun f =>
  match PropStream.writePathTable f.table with
  | .ok b => (.ok (), { f with stored := some b })
  | .error e => (.error e, f)

/-- `read_reference_properties` (file.py:306-326).  `cfb.open` of a path that is not there raises. -/
def readTable : FM Unit := fun f =>
  match f.stored with
  | none => (.error .valueError, f)
  | some b =>
    match PropStream.readPathTable b with
    | .ok t => (.ok (), { f with table := t })
    | .error e => (.error e, f)

/-- `AAFFile.save` (file.py:361-370). -/
def save : FM Unit := fun f =>
  if f.world.ro then (.ok (), f) else (writeTable >>= fun _ => obj Graph.save) f

/-- The constructor of a file that exists (file.py:210-216). -/
def opened (ro : Bool) : FM Unit := do
  readTable
  obj (Graph.opened ro)

/-- Calls of a program: those on objects, and those on weak references. (Used in `WCall.run`: file.py:345-380.) -/
inductive WCall where
  | on (c : Call)
  | get (o : Oid) (pid : Pid)
  | set (o : Oid) (pid : Pid) (v : Oid)
  | items (o : Oid) (pid : Pid)
  | len (o : Oid) (pid : Pid)
  | has (o : Oid) (pid : Pid) (k : Key)
  | item (o : Oid) (pid : Pid) (k : Key)
  | extend (o : Oid) (pid : Pid) (vs : List Oid)
  | clear (o : Oid) (pid : Pid)
  | assign (o : Oid) (pid : Pid) (vs : List Oid)

/-- One call.  `save`, `reopen` and `abort` have the table too (file.py:345-380). -/
def WCall.run (D : Defs) : WCall → FM Ans
  | .on .save => do
    Weak.save
    pure .none
  | .on (.reopen ro) => do
    Weak.save
    opened ro
    pure .none
  | .on (.abort ro) => do
    opened ro
    pure .none
  | .on c => obj c.run
  | .get o pid => getRef o pid
  | .set o pid v => setRef D o pid v
  | .items o pid => Weak.items o pid
  | .len o pid => Weak.len o pid
  | .has o pid k => Weak.has o pid k
  | .item o pid k => Weak.item o pid k
  | .extend o pid vs => Weak.extend D o pid vs
  | .clear o pid => Weak.clear o pid
  | .assign o pid vs => Weak.assign D o pid vs

/-- A program: its calls one after the other, whatever they raise. (Made of `Defs` properties.py:1061-1071, 1174-1180, `File` file.py:246-280, `WCall` file.py:345-380.) -/
def runs (D : Defs) : List WCall → File → List (Res Ans) × File
  | [], f => ([], f)
  | c :: cs, f => ((c.run D f).1 :: (runs D cs (c.run D f).2).1, (runs D cs (c.run D f).2).2)

/-- A new file.  `t` is the table after the definitions have been set up (file.py:246-280). -/
def newFile (t : List (List Pid)) : File := ⟨Graph.newWorld, t, none⟩

/-! ## A copy of one reference -/

/-- The fields of a `WeakRefProperty` object and its bytes (properties.py:1000-1006).  `key_size` is not used in
`encode`. -/
structure Fields where
  index : Option Nat
  keyPid : Option Nat
  ref : Option Key
  data : Option Bytes
  deriving DecidableEq

/-- `decode` (properties.py:1035-1044). -/
def Fields.read (b : Bytes) : Res Fields := do
  let r ← PropStream.decWeakRef b
  .ok ⟨some r.index, some r.keyPid, some (keyOfBytes r.ref), some b⟩

/-- `copy` into an object of the same file (properties.py:1008-1016): `p.key_pid = self.pid`. -/
def Fields.copy (pid : Pid) (p : Fields) : Fields := { p with keyPid := some pid }

/-- `value = v` for an object with the key `k`, when the index of the path is known (properties.py:1086-1096). -/
def Fields.set (D : Defs) (pid : Pid) (k : Key) (index : Nat) (p : Fields) : Res Fields := do
  let i := p.index.getD index
  let q := p.keyPid.getD (D.keyPid pid)
  let b ← PropStream.encWeakRef ⟨i, q, keyBytes k⟩
  .ok ⟨some i, some q, some k, some b⟩

end Verif.Weak
