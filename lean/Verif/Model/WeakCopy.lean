import Verif.Model.PropStream
/-!
# Copying weak references into another file

`WeakRefProperty.copy` and `WeakRefArrayProperty.copy` (`/repo/src/aaf2/properties.py` 1008-1033, 1108-1125) under `AAFObject.copy` (`core.py` 249-280), and
`Dictionary.update` (`dictionary.py` 259-281).

Simplifications:

* An object is given with all that is below it: the list of the properties of all these objects, in the order in which copying reaches them.  `place` says in which of
  the objects a property is; C47 is about the strong references themselves.
* The definitions of both files are the same, so that pids are the same (C55, C56 are about what a copy does to definitions); the classes of values are not tested, and the second file can be written.
* A file is its table of paths and the collections at the ends of paths; a path that ends nowhere is a `KeyError` (file.py:285-294).  The key under which an object is in a collection
  is the unique key of the object (C33).
* A type that is missing is taken over as it is (`register_external_typedef`; C56).  For a class that is missing what is in the collection at the end is the copy
  (properties.py:1023-1029: after `register_external_classdef` the class is copied as well).
* The depth of calls is bounded by `fuel` (`RecursionError` is `noFuel`).
-/
namespace Verif.WCopy

/-- Used in `File.resolve`: file.py:281-283. -/
abbrev Key := Nat
/-- Used in `Defs`: properties.py:1069-1071, 1086-1087, 1178-1180. -/
abbrev Pid := Nat
/-- Used in `Defs`: properties.py:1069-1071, 1086-1087, 1178-1180. -/
abbrev Path := List Pid

/-- What the definitions say of a weak reference in a class: `pid_path` and `unique_key_pid` (properties.py:1069-1071, 1086-1087, 1178-1180). -/
structure Defs where
  path : Nat → Pid → Path
  keyPid : Nat → Pid → Nat

/-- The value of a property: bytes; one weak reference; several, where `weakref_index`, `key_pid` and the name of the index are not there before the first reference is appended. (Used in `Val.write`: properties.py:1157.) -/
inductive Val where
  | data (b : Bytes)
  | weak (index keyPid : Nat) (key : Key)
  | weaks (fields : Option (Nat × Nat)) (keys : List Key)
  deriving DecidableEq

/-- A property of an object or of one below it. (Used in `copyWeak`: properties.py:1018-1033.) -/
structure Item where
  place : List Nat
  cls : Nat
  pid : Pid
  val : Val
  deriving DecidableEq

/-- An object with what is below it. (Used in `File.coll`: file.py:285-294.) -/
structure Obj where
  cls : Nat
  key : Key
  items : List Item
  deriving DecidableEq

/-- A file: `weakref_table` and the collections. (Used in `File.coll`: file.py:285-294.) -/
structure File where
  table : List Path
  colls : List (Path × List Obj)
  deriving DecidableEq

/-- `weakref_prop` (file.py:285-294). -/
def File.coll (f : File) (p : Path) : Option (List Obj) := f.colls.lookup p

/-- The member with a key. (Used in `itemAt`: properties.py:838-842.) -/
def File.find (f : File) (p : Path) (k : Key) : Option Obj := ((f.coll p).getD []).find? fun d => d.key = k

/-- `resovle_weakref` (file.py:281-283). -/
def File.resolve (f : File) (index : Nat) (k : Key) : Res Obj :=
  match f.table[index]? with
  | none => .error .indexError
  | some p =>
    match f.coll p with
    | none => .error .keyError
    | some c =>
      match c.find? fun d => d.key = k with
      | none => .error .keyError
      | some d => .ok d

/-- A member for a collection: one with the same key gives its place (properties.py:894-913). -/
def putIn (c : List Obj) (d : Obj) : List Obj :=
  if c.any fun x => x.key = d.key then c.map fun x => if x.key = d.key then d else x else c ++ [d]

/-- The collection at the end of a path, another one in its place. (Used in `File.add`: properties.py:850-919.) -/
def putColl (p : Path) (c : List Obj) : List (Path × List Obj) → List (Path × List Obj)
  | [] => [(p, c)]
  | e :: r => if e.1 = p then (p, c) :: r else e :: putColl p c r

/-- `append` to the collection, which is there after it (properties.py:850-919). -/
def File.add (f : File) (p : Path) (d : Obj) : File := { f with colls := putColl p (putIn ((f.coll p).getD []) d) f.colls }

/-- A computation on the second file that may raise. (Used in `indexFor`: file.py:296-304.) -/
def FM (α : Type) := File → Res α × File

/-- Used in `need`: properties.py:1021-1029. -/
def FM.pure {α : Type} (a : α) : FM α := fun f => (.ok a, f)

/-- Made of `FM` file.py:296-304. -/
def FM.bind {α β : Type} (m : FM α) (g : α → FM β) : FM β := fun f =>
  match m f with
  | (.ok a, f) => g a f
  | (.error e, f) => (.error e, f)

instance : Monad FM where
  pure := FM.pure
  bind := FM.bind

/-- Used in `copyRefs`: properties.py:1119-1123. -/
def raise {α : Type} (e : Err) : FM α := fun f => (.error e, f)

/-- A result that may be an exception. (Used in `bring`: properties.py:1021-1029.) -/
def lift {α : Type} : Res α → FM α
  | .ok a => pure a
  | .error e => raise e

/-- `weakref_index` (file.py:296-304). -/
def indexFor (p : Path) : FM Nat := fun f =>
  (.ok (PropStream.weakrefIndex f.table p).2, { f with table := (PropStream.weakrefIndex f.table p).1 })

/-- `weakref_prop` (file.py:285-294). -/
def target (p : Path) : FM (List Obj) := fun f =>
  match f.coll p with
  | none => (.error .keyError, f)
  | some c => (.ok c, f)

/-- `target_property[key]` (properties.py:838-842). -/
def itemAt (p : Path) (k : Key) : FM Obj := fun f =>
  match f.find p k with
  | none => (.error .keyError, f)
  | some d => (.ok d, f)

/-- `target_property.append(d)`. (Used in `bring`: properties.py:1021-1029.) -/
def append (p : Path) (d : Obj) : FM Unit := fun f => (.ok (), f.add p d)

/-- The path of the types of a file: `MetaDictionary`, `TypeDefinitions` (model/typedefs.py:554-556; metadict.py:300-316). -/
def typesPath : Path := [0x0001, 0x0004]

/-- What is done for a definition that is not there (properties.py:1021-1029); `go` copies an object. -/
def bring (src : File) (go : Obj → FM Obj) (p : Path) (index : Nat) (k : Key) : FM Unit := do
  let v ← lift (src.resolve index k)
  if p = typesPath then append p v
  else do
    let c ← go v
    append p c

/-- `if self.ref not in target_property: …` (properties.py:1021-1029). -/
def need (src : File) (go : Obj → FM Obj) (p : Path) (index : Nat) (k : Key) (c : List Obj) : FM Unit :=
  if c.any fun d => d.key = k then pure () else bring src go p index k

/-- `for ref in self.references: assert …; p.append(target_property[ref])` (properties.py:1119-1123). -/
def copyRefs (p : Path) : List Key → FM (List Key)
  | [] => pure []
  | k :: r => do
    let c ← target p
    if c.any fun d => d.key = k then do
      let d ← itemAt p k
      let l ← copyRefs p r
      pure (d.key :: l)
    else raise .assertion

/-- `WeakRefProperty.copy` (properties.py:1018-1033). -/
def copyWeak (D : Defs) (src : File) (go : Obj → FM Obj) (it : Item) (i : Nat) (k : Key) : FM Item := do
  let index ← indexFor (D.path it.cls it.pid)
  let c ← target (D.path it.cls it.pid)
  need src go (D.path it.cls it.pid) i k c
  let d ← itemAt (D.path it.cls it.pid) k
  pure { it with val := .weak index (D.keyPid it.cls it.pid) d.key }

/-- `WeakRefArrayProperty.copy` (properties.py:1116-1125). -/
def copyWeaks (D : Defs) (it : Item) (ks : List Key) : FM Item := do
  let index ← indexFor (D.path it.cls it.pid)
  let _ ← target (D.path it.cls it.pid)
  let l ← copyRefs (D.path it.cls it.pid) ks
  pure { it with val := .weaks (if ks = [] then none else some (index, D.keyPid it.cls it.pid)) l }

/-- `p.copy(new_obj, pid, cache)` for a property in another file (properties.py:138-141, 1008-1033, 1108-1125). -/
def copyItem (D : Defs) (src : File) (go : Obj → FM Obj) (it : Item) : FM Item :=
  match it.val with
  | .data _ => pure it
  | .weak i _ k => copyWeak D src go it i k
  | .weaks _ ks => copyWeaks D it ks

/-- The loop over the properties (core.py:271-278). -/
def copyItems (D : Defs) (src : File) (go : Obj → FM Obj) : List Item → FM (List Item)
  | [] => pure []
  | it :: r => do
    let x ← copyItem D src go it
    let l ← copyItems D src go r
    pure (x :: l)

/-- `obj.copy(root=other)` (core.py:249-280). -/
def copyObj (D : Defs) (src : File) : Nat → Obj → FM Obj
  | 0, _ => raise .noFuel
  | n + 1, v => do
    let l ← copyItems D src (copyObj D src n) v.items
    pure { v with items := l }

/-- Whether the property can be written: `self.index_name + " index"` in `write_index` (properties.py:1157). -/
def Val.write : Val → Res Unit
  | .weaks none _ => .error .typeError
  | _ => .ok ()

/-- `Header`, `Dictionary`, and a collection there. (Used in `updated`: dictionary.py:263-269.) -/
def dictPath (pid : Pid) : Path := [0x0002, 0x3b04, pid]

/-- The path of `OperationDefinitions` (dictionary.py:249-250). -/
def operations : Path := dictPath 0x2603
/-- The path of `ParameterDefinitions` (dictionary.py:247-248). -/
def parameters : Path := dictPath 0x2604

/-- The collections that `update` goes through (dictionary.py:263-269): data, container, codec, parameter, operation, interpolation and tagged value definitions. -/
def updated : List Path := [0x2605, 0x2608, 0x2607, 0x2604, 0x2603, 0x2609, 0x260b].map dictPath

/-- `OperationDef.parameters` (dictionary.py:132-134): the index of the path and the keys. -/
def Obj.params (d : Obj) : Nat × List Key :=
  match d.items.find? fun it => it.place = [] ∧ it.pid = 0x1e09 with
  | some ⟨_, _, _, .weaks (some (i, _)) ks⟩ => (i, ks)
  | _ => (0, [])

/-- One parameter of an operation that both have (dictionary.py:279-281): `lookup_parameterdef` gives `None` for one that is not there, and an operation has no `append`. -/
def checkParam (op : Obj) (k : Key) : FM Unit := fun f =>
  match f.find parameters k with
  | none => (.error .attributeError, f)
  | some _ => if k ∈ op.params.2 then (.ok (), f) else (.error .attributeError, f)

/-- All of them (dictionary.py:278). -/
def checkParams (src : File) (op : Obj) (index : Nat) : List Key → FM Unit
  | [] => pure ()
  | k :: r => do
    let d ← lift (src.resolve index k)
    checkParam op d.key
    checkParams src op index r

/-- One definition of the other dictionary (dictionary.py:272-281). -/
def updateOne (D : Defs) (src : File) (fuel : Nat) (p : Path) (d : Obj) : FM Unit := fun f =>
  match f.find p d.key with
  | none => (do
      let c ← copyObj D src fuel d
      append p c : FM Unit) f
  | some op => if p = operations then checkParams src op d.params.1 d.params.2 f else (.ok (), f)

/-- The definitions of a collection (dictionary.py:271). -/
def updateColl (D : Defs) (src : File) (fuel : Nat) (p : Path) : List Obj → FM Unit
  | [] => pure ()
  | d :: r => do
    updateOne D src fuel p d
    updateColl D src fuel p r

/-- The loop over the collections (dictionary.py:263-271). -/
def updateColls (D : Defs) (src : File) (fuel : Nat) : List Path → FM Unit
  | [] => pure ()
  | p :: r => do
    updateColl D src fuel p ((src.coll p).getD [])
    updateColls D src fuel r

/-- `self.dictionary.update(other.dictionary)` (dictionary.py:259-281). -/
def update (D : Defs) (src : File) (fuel : Nat) : FM Unit := updateColls D src fuel updated

end Verif.WCopy
