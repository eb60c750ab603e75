import Verif.Model.Bytes
/-!
# Objects and their reference properties

`/repo/src/aaf2/properties.py` 59-178 and 290-985, `core.py` 30-247 and 302-323, `file.py` 41-144 and
345-380.

A world is: the Python objects, the storages of the container with what has been written there, the
manager's table of objects by path and its table of modified objects.

An exception leaves the world as it was at that moment, therefore every function returns a result
and a world.

Simplifications:

* A storage is named by the list of names on its path, innermost first.  A name is a constructor and
  not a text: the texts made by `mangle_name` differ in upper case whenever these differ
  (`C15_no_collision_upper`).  Storages are made and found as in `DirTree`.
* One file only: the tests `value.root is not self.parent.root` and those on classes are left out.
* Weak references, streams and the texts of values are not there; a plain property is its bytes.
  The value of the property with the unique key is a field of the object.
* An object read again after its Python object has been collected has the identity it had before:
  nobody can tell.  What is collected when is up to the interpreter, so that `evict` is a step of
  its own.  It may take any object that is written, attached and in no variable of the program.
* `write_properties` does not validate.
* An entry that is not in `property_entries` lives only until the call is over: a program says
  `obj['Name'].append(x)` every time.
-/
namespace Verif.Graph

/-- Identity of a Python object. (Used in `VecP`: properties.py:406-421.) -/
abbrev Oid := Nat
/-- The value of a unique key (`AUID` or `MobID`). (Used in `SetP`: properties.py:692-711.) -/
abbrev Key := Nat
/-- Used in `Nm`: properties.py:368. -/
abbrev Pid := Nat

/-- The name of the storage of a referenced object: `mangle_name(property_name, pid, 32)`
(properties.py:368) or `"%s{%x}" % (index_name, local_key)` (properties.py:508-509, 808-809). -/
inductive Nm where
  | one (pid : Pid)
  | item (pid : Pid) (key : Nat)
  deriving DecidableEq, Repr

/-- A storage: the names on its path, innermost first (`DirEntry.path`, cfb.py:1000-1009). -/
abbrev Place := List Nm

/-- The fields of a `StrongRefVectorProperty` (properties.py:406-421): `references`,
`next_free_key` and the dictionary `objects`. -/
structure VecP where
  refs : List Nat
  next : Nat
  objs : Int → Option Oid

/-- The fields of a `StrongRefSetProperty` (properties.py:692-711). -/
structure SetP where
  refs : List (Key × Nat)
  next : Nat
  objs : Key → Option Oid

/-- A property: plain bytes (`Property`), one object (`StrongRefProperty`, with what `objectref`
gives), a vector or a set. (Used in `Obj`: core.py:30-38.) -/
inductive Prp where
  | data (b : Bytes)
  | one (obj : Option Oid)
  | vec (v : VecP)
  | set (v : SetP)

/-- An `AAFObject` (core.py:30-38).  `property_entries` is its keys in order and the entries.
`cls` is its `class_id`. -/
structure Obj where
  dir : Option Place
  key : Option Key
  pids : List Pid
  prp : Pid → Option Prp
  cls : Nat

/-- What is in the file of a property: its bytes, or the index of a vector or set
(properties.py:489-502, 788-806). -/
inductive SPrp where
  | data (b : Bytes)
  | one
  | vec (refs : List Nat) (next : Nat)
  | set (refs : List (Key × Nat)) (next : Nat)
  deriving DecidableEq

/-- What `write_properties` writes into a storage. (Used in `Act`: properties.py:396-398, 680-682, 907-911.) -/
structure Rec where
  key : Option Key
  pids : List Pid
  prp : Pid → Option SPrp

/-- A call on the container: `dir.makedir` or `get` of the storage of an object (properties.py:396-398,
680-682, 907-911), `dir.class_id = c` (core.py:205), `write_properties`
(core.py:135-167), `dir.class_id` and `read_properties` with what they have given (file.py:101-130),
closing and opening the container. -/
inductive Act where
  | makeDir (p : Place) (nm : Nm)
  | setCls (p : Place) (c : Nat)
  | write (p : Place) (r : Rec)
  | read (p : Place) (c : Nat) (r : Option Rec)
  | reopen

/-- The objects and the container: `disk` are the streams, `dirs` and `cls` the directory with its
class ids.  `held` are the objects in variables of the program.  `log` are the calls on the container
so far; nothing depends on it. (Used in `opened`: file.py:205-220.) -/
structure World where
  ro : Bool
  heap : Oid → Option Obj
  next : Nat
  disk : Place → Option (Oid × Rec)
  dirs : Place → Bool
  man : Place → Option Oid
  modified : List (Place × Oid)
  held : List Oid
  cls : Place → Nat
  log : List Act

/-- A computation that may raise. (Used in `collect`: core.py:221-239.) -/
def M (α : Type) := World → Res α × World

/-- Used in `collect`: core.py:221-239. -/
def M.pure {α : Type} (a : α) : M α := fun w => (.ok a, w)

/-- Made of `M` core.py:221-239. -/
def M.bind {α β : Type} (m : M α) (f : α → M β) : M β := fun w =>
  match m w with
  | (.ok a, w) => f a w
  | (.error e, w) => (.error e, w)

instance : Monad M where
  pure := M.pure
  bind := M.bind

/-- `raise`. (Used in `vecOf`: core.py:302-323.) -/
def raise {α : Type} (e : Err) : M α := fun w => (.error e, w)

/-- Update of a function at one place. (Used in `add`: properties.py:168-171.) -/
def upd {α β : Type} [DecidableEq α] (f : α → β) (a : α) (b : β) : α → β :=
  fun x => if x = a then b else f x

/-- `for x in l: f(x)`. (Used in `detach`: core.py:169-198.) -/
def each {α : Type} : List α → (α → M Unit) → M Unit
  | [], _ => pure ()
  | a :: l, f => do f a; each l f

/-- `for x in l: refs.extend(f(x))` (core.py:221-239). -/
def collect {α : Type} : List α → (α → M (List Oid)) → M (List Oid)
  | [], _ => pure []
  | a :: l, f => do
    let x ← f a
    let y ← collect l f
    pure (x ++ y)

/-! ## Objects and entries -/

/-- The object itself. (Used in `add`: properties.py:168-171.) -/
def getObj (o : Oid) : M Obj := fun w =>
  match w.heap o with
  | some ob => (.ok ob, w)
  | none => (.error .attributeError, w)

/-- Used in `add`: properties.py:168-171. -/
def setObj (o : Oid) (ob : Obj) : M Unit := fun w => (.ok (), { w with heap := upd w.heap o (some ob) })

/-- `property_entries.get(pid)`. (Used in `vecOf`: core.py:302-323.) -/
def entry (o : Oid) (pid : Pid) : M (Option Prp) := do
  let ob ← getObj o
  pure (ob.prp pid)

/-- A change of an entry object: the dictionary has it or not (then the change is lost at the end of
the call). (Used in `oneGet`: properties.py:340-348.) -/
def put (o : Oid) (pid : Pid) (p : Prp) : M Unit := do
  let ob ← getObj o
  match ob.prp pid with
  | none => pure ()
  | some _ => setObj o { ob with prp := upd ob.prp pid (some p) }

/-- `add_pid_entry` (properties.py:168-171) after a change of the entry object. -/
def add (o : Oid) (pid : Pid) (p : Prp) : M Unit := do
  let ob ← getObj o
  match ob.prp pid with
  | none => setObj o { ob with pids := ob.pids ++ [pid], prp := upd ob.prp pid (some p) }
  | some _ => setObj o { ob with prp := upd ob.prp pid (some p) }

/-- `remove_pid_entry` (properties.py:173-175). -/
def remove (o : Oid) (pid : Pid) : M Unit := do
  let ob ← getObj o
  setObj o { ob with pids := ob.pids.filter (· != pid), prp := upd ob.prp pid none }

/-- A new vector property (properties.py:409-421). -/
def VecP.empty : VecP := ⟨[], 0, fun _ => none⟩
/-- A new set property (properties.py:694-711). -/
def SetP.empty : SetP := ⟨[], 0, fun _ => none⟩

/-- The vector property of an object (core.py:302-323), new when there is none. -/
def vecOf (o : Oid) (pid : Pid) : M VecP := do
  match ← entry o pid with
  | some (.vec v) => pure v
  | none => pure .empty
  | _ => raise .attributeError

/-- The set property of an object (core.py:302-323), new when there is none. -/
def setOf (o : Oid) (pid : Pid) : M SetP := do
  match ← entry o pid with
  | some (.set v) => pure v
  | none => pure .empty
  | _ => raise .attributeError

/-! ## The manager -/

/-- `modified[path] = obj` of a dictionary. (Used in `addModified`: file.py:81-87.) -/
def dset (p : Place) (o : Oid) : List (Place × Oid) → List (Place × Oid)
  | [] => [(p, o)]
  | (q, x) :: l => if q = p then (q, o) :: l else (q, x) :: dset p o l

/-- `AAFObjectManager.add_modified` (file.py:81-87). -/
def addModified (o : Oid) (p : Place) : M Unit := fun w =>
  if w.ro then (.error .valueError, w)
  else (.ok (), { w with modified := dset p o w.modified, man := upd w.man p (some o) })

/-- `AAFObjectManager.pop` (file.py:89-95). -/
def forget (p : Place) : M Unit := fun w =>
  (.ok (), { w with modified := w.modified.filter (·.1 != p), man := upd w.man p none })

/-- A property as read from the file, with nothing in its dictionary of objects
(core.py:70-109, properties.py:469-487, 742-786). -/
def SPrp.load : SPrp → Prp
  | .data b => .data b
  | .one => .one none
  | .vec r n => .vec ⟨r, n, fun _ => none⟩
  | .set r n => .set ⟨r, n, fun _ => none⟩

/-- A property as written into the file (core.py:135-167). -/
def Prp.store : Prp → SPrp
  | .data b => .data b
  | .one _ => .one
  | .vec v => .vec v.refs v.next
  | .set v => .set v.refs v.next

/-- `AAFObjectManager.read_object` of a storage that exists (file.py:101-130).  A storage without
a properties stream gives an object without properties (core.py:72-74). -/
def readObj (p : Place) : M Oid := fun w =>
  match w.man p with
  | some o => (.ok o, w)
  | none =>
    match w.disk p with
    | some (o, r) =>
      (.ok o, { w with
        heap := upd w.heap o (some ⟨some p, r.key, r.pids, fun pid => (r.prp pid).map SPrp.load, w.cls p⟩)
        man := upd w.man p (some o)
        log := w.log ++ [.read p (w.cls p) (some r)] })
    | none =>
      (.ok w.next, { w with
        heap := upd w.heap w.next (some ⟨some p, none, [], fun _ => none, w.cls p⟩)
        man := upd w.man p (some w.next)
        next := w.next + 1
        log := w.log ++ [.read p (w.cls p) none] })

/-- The object in the storage `nm` of `o`: `dir_entry = self.parent.dir.get(ref)` and
`manager.read_object(dir_entry)` (properties.py:343-346, 521-523, 817-819). -/
def fetch (o : Oid) (nm : Nm) : M Oid := do
  let ob ← getObj o
  match ob.dir with
  | none => raise .attributeError
  | some p => fun w => if w.dirs (nm :: p) then readObj (nm :: p) w else (.error .valueError, w)

/-! ## Reading references -/

/-- `StrongRefProperty.value` (properties.py:340-348).  An entry that is new has `ref` none, and
`dir.get(None)` gives none. -/
def oneGet (o : Oid) (pid : Pid) : M (Option Oid) := do
  match ← entry o pid with
  | some (.one (some c)) => pure (some c)
  | some (.one none) => do
    let c ← fetch o (.one pid)
    put o pid (.one (some c))
    pure (some c)
  | none => do
    let ob ← getObj o
    match ob.dir with
    | none => raise .attributeError
    | some _ => pure none
  | _ => raise .attributeError

/-- An index as the methods of a vector take it: `if index < 0: index = max(0, len + index)`
(properties.py:515-516, 543-544, 580-581). -/
def clamp (i : Int) (n : Nat) : Nat := if i < 0 then (max 0 (n + i)).toNat else i.toNat

/-- `StrongRefVectorProperty.get` without a default (properties.py:511-526). -/
def vecGet (o : Oid) (pid : Pid) (i : Int) : M (Option Oid) := do
  let v ← vecOf o pid
  if i ≥ v.refs.length then pure none
  else
    match v.objs (clamp i v.refs.length) with
    | some c => pure (some c)
    | none =>
      match v.refs[clamp i v.refs.length]? with
      | none => raise .indexError
      | some k => do
        let c ← fetch o (.item pid k)
        put o pid (.vec { v with objs := upd v.objs (clamp i v.refs.length : Nat) (some c) })
        pure (some c)

/-- `StrongRefSetProperty.get` and `read_object` (properties.py:811-821, 841-844). -/
def setGet (o : Oid) (pid : Pid) (k : Key) : M (Option Oid) := do
  let v ← setOf o pid
  match v.refs.lookup k with
  | none => pure none
  | some n =>
    match v.objs k with
    | some c => pure (some c)
    | none => do
      let c ← fetch o (.item pid n)
      put o pid (.set { v with objs := upd v.objs k (some c) })
      pure (some c)

/-- The objects a property refers to: `p.value` in `walk_references` (core.py:221-239,
properties.py:528-530, 826-836). -/
def loadProp (o : Oid) (pid : Pid) : M (List Oid) := do
  match ← entry o pid with
  | some (.one _) => do
    let c ← oneGet o pid
    pure c.toList
  | some (.vec v) => collect (List.range v.refs.length) fun i => do
    let c ← vecGet o pid i
    pure c.toList
  | some (.set v) => collect v.refs fun k => do
    let c ← setGet o pid k.1
    pure c.toList
  | _ => pure []

/-- The objects an object refers to (core.py:218-239). -/
def loadAll (o : Oid) : M (List Oid) := do
  let ob ← getObj o
  collect ob.pids (loadProp o)

/-! ## Attaching and detaching -/

/-- One step of `AAFObject.detach` (core.py:171-198): the entries convert what they refer to into
regular references (properties.py:382-384, 667-671, 963-967), i.e. read all of it once more, and the
object leaves the manager and its storage. -/
def release (o : Oid) : M Unit := do
  let _ ← loadAll o
  let ob ← getObj o
  match ob.dir with
  | none => pure ()
  | some p => do
    forget p
    setObj o { ob with dir := none }

/-- `AAFObject.detach` (core.py:169-198) with `walk_references(topdown=True)` (core.py:218-247),
which gives an object after all those below it.  `fuel` bounds the depth. -/
def detach : Nat → Oid → M Unit
  | 0, _ => raise .noFuel
  | fuel + 1, o => do
    let kids ← loadAll o
    each kids (detach fuel)
    release o

/-- `self.object.dir != dir_entry` negated: equality of entries is equality of their names
(cfb.py:696-704). -/
def sameName (d : Option Place) (p : Place) : Bool :=
  match d with
  | none => false
  | some q => q.head? == p.head?

/-- The storage of a referenced object is found or made, and the object attached there unless it is
there already (properties.py:396-400, 680-684, 978-983, 907-913). -/
def attachItem (go : Oid → Place → M Unit) (o : Oid) (nm : Nm) (c : Oid) : M Unit := do
  let ob ← getObj o
  match ob.dir with
  | none => pure ()
  | some p => do
    (fun w => (.ok (), { w with dirs := upd w.dirs (nm :: p) true, log := w.log ++ [.makeDir p nm] }) : M Unit)
    let cob ← getObj c
    if sameName cob.dir (nm :: p) then pure () else go c (nm :: p)

/-- `StrongRefProperty.attach` (properties.py:386-403). -/
def attachOne (go : Oid → Place → M Unit) (o : Oid) (pid : Pid) : M Unit := do
  match ← oneGet o pid with
  | none => pure ()
  | some c => attachItem go o (.one pid) c

/-- One turn of `StrongRefVectorProperty.attach` (properties.py:678-684). -/
def attachVecStep (go : Oid → Place → M Unit) (o : Oid) (pid : Pid) (i : Nat) : M Unit := do
  let c ← vecGet o pid i
  let v ← vecOf o pid
  match v.refs[i]?, c with
  | some k, some c => attachItem go o (.item pid k) c
  | _, _ => raise .indexError

/-- `StrongRefVectorProperty.attach` (properties.py:673-684). -/
def attachVec (go : Oid → Place → M Unit) (o : Oid) (pid : Pid) : M Unit := do
  let ob ← getObj o
  match ob.dir with
  | none => pure ()
  | some _ => do
    let v ← vecOf o pid
    each (List.range v.refs.length) (attachVecStep go o pid)

/-- One turn of `StrongRefSetProperty.attach` (properties.py:974-983). -/
def attachSetStep (go : Oid → Place → M Unit) (o : Oid) (pid : Pid) (k : Key × Nat) : M Unit := do
  let v ← setOf o pid
  match v.objs k.1 with
  | none => pure ()
  | some c => attachItem go o (.item pid k.2) c

/-- `StrongRefSetProperty.attach` (properties.py:969-983). -/
def attachSet (go : Oid → Place → M Unit) (o : Oid) (pid : Pid) : M Unit := do
  let ob ← getObj o
  match ob.dir with
  | none => pure ()
  | some _ => do
    let v ← setOf o pid
    each v.refs (attachSetStep go o pid)

/-- `p.attach()` of any property (core.py:210-216). -/
def attachProp (go : Oid → Place → M Unit) (o : Oid) (pid : Pid) : M Unit := do
  match ← entry o pid with
  | some (.one _) => attachOne go o pid
  | some (.vec _) => attachVec go o pid
  | some (.set _) => attachSet go o pid
  | _ => pure ()

/-- `self.dir.class_id = self.class_id` (core.py:205): the directory has it at once. -/
def setCls (p : Place) (c : Nat) : M Unit := fun w => (.ok (), { w with cls := upd w.cls p c, log := w.log ++ [.setCls p c] })

/-- `AAFObject.attach` (core.py:200-216).  `fuel` bounds the depth. -/
def attach : Nat → Oid → Place → M Unit
  | 0, _, _ => raise .noFuel
  | fuel + 1, o, p => do
    let ob ← getObj o
    match ob.dir with
    | some _ => raise .attachError
    | none => do
      setObj o { ob with dir := some p }
      setCls p ob.cls
      addModified o p
      each ob.pids (attachProp (attach fuel) o)

/-- Enough for any depth that there can be. (Used in `oneSet`: properties.py:350-380.) -/
def enough : M Nat := fun w => (.ok (w.next + 1), w)

/-- Used in `oneSet`: properties.py:350-380. -/
def detachAll (o : Oid) : M Unit := do
  let n ← enough
  detach n o

/-! ## Calls -/

/-- `mark_modified` (properties.py:98-100). -/
def markModified (o : Oid) : M Unit := do
  let ob ← getObj o
  match ob.dir with
  | none => pure ()
  | some p => addModified o p

/-- The decorator `writeonly` (properties.py:59-67, 89-93). -/
def writeonly {α : Type} (o : Oid) (m : M α) : M α := fun w =>
  if w.ro then (.error .propertyError, w)
  else (do let r ← m; markModified o; pure r : M α) w

/-- `Property.value` for bytes that are no unique key (properties.py:150-166). -/
def setData (o : Oid) (pid : Pid) (b : Bytes) : M Unit := writeonly o do
  match ← entry o pid with
  | some (.data _) | none => add o pid (.data b)
  | _ => raise .attributeError

/-- `value = None` of a property of any kind (properties.py:162-164, 353-355, 660-662, 952-954): the
entry goes, the objects it refers to are not detached. -/
def dropProp (o : Oid) (pid : Pid) : M Unit := writeonly o (remove o pid)

/-- `del obj[name]` (core.py:340-347): the entry goes whatever the mode is, then the object is marked
if it is attached. -/
def delItem (o : Oid) (pid : Pid) : M Unit := do
  match ← entry o pid with
  | none => raise .keyError
  | some _ => do
    remove o pid
    markModified o

/-- `Property.value = k` for the unique key of an object that is no mob and no essence data
(properties.py:150-166), for these see `rekey`. -/
def setKey (c : Oid) (k : Key) : M Unit := writeonly c do
  let cb ← getObj c
  match cb.key, cb.dir with
  | some _, some _ => raise .propertyError
  | _, _ => setObj c { cb with key := some k }

/-- `Property.value` (properties.py:143-148). -/
def getData (o : Oid) (pid : Pid) : M (Option Bytes) := do
  match ← entry o pid with
  | some (.data b) => pure (some b)
  | none => pure none
  | _ => raise .attributeError

/-- `StrongRefProperty.value = v` (properties.py:350-380). -/
def oneSet (o : Oid) (pid : Pid) (v : Oid) : M Unit := writeonly o do
  match ← entry o pid with
  | some (.one c) => do
    match c with
    | some c => detachAll c
    | none => pure ()
    add o pid (.one (some v))
    let n ← enough
    attachOne (attach n) o pid
  | none => do
    add o pid (.one (some v))
    let n ← enough
    attachOne (attach n) o pid
  | _ => raise .attributeError

/-- `old = prop.value; prop.value = v`. (Made of `Oid` properties.py:406-421, `Pid` properties.py:368, `M` core.py:221-239, `oneGet` properties.py:340-348 and others.) -/
def oneSwap (o : Oid) (pid : Pid) (v : Oid) : M (Option Oid) := do
  let c ← oneGet o pid
  oneSet o pid v
  pure c

/-- `old = prop.value; prop.value = None; if old: old.detach()`. (Made of `Oid` properties.py:406-421, `Pid` properties.py:368, `M` core.py:221-239, `oneGet` properties.py:340-348 and others.) -/
def oneTake (o : Oid) (pid : Pid) : M (Option Oid) := do
  match ← oneGet o pid with
  | none => do
    dropProp o pid
    pure none
  | some c => do
    dropProp o pid
    detachAll c
    pure (some c)

/-- `if value.dir: raise AAFAttachError` (properties.py:552-553, 638-639, 880-881). -/
def checkFree (v : Oid) : M Unit := do
  let ob ← getObj v
  match ob.dir with
  | some _ => raise .attachError
  | none => pure ()

/-- `list(prop)` for a vector (properties.py:528-530, 653-655). -/
def vecItems (o : Oid) (pid : Pid) : M (List Oid) := do
  let v ← vecOf o pid
  collect (List.range v.refs.length) fun i => do
    let c ← vecGet o pid i
    pure c.toList

/-- `prop[i]` (properties.py:535-539). -/
def vecAt (o : Oid) (pid : Pid) (i : Int) : M Oid := do
  match ← vecGet o pid i with
  | none => raise .indexError
  | some c => pure c

/-- `len(prop)` (properties.py:532-533). -/
def vecLen (o : Oid) (pid : Pid) : M Nat := do
  let v ← vecOf o pid
  pure v.refs.length

/-- The loop of `extend` (properties.py:641-645). -/
def pushAll (v : VecP) (vs : List Oid) : VecP :=
  vs.foldl (fun v c => ⟨v.refs ++ [v.next], v.next + 1, upd v.objs (v.refs.length : Nat) (some c)⟩) v

/-- `StrongRefVectorProperty.extend` (properties.py:627-648), of a list. -/
def vecExtend (o : Oid) (pid : Pid) (vs : List Oid) : M Unit := writeonly o do
  each vs checkFree
  let v ← vecOf o pid
  add o pid (.vec (pushAll v vs))
  let n ← enough
  attachVec (attach n) o pid

/-- `StrongRefVectorProperty.__setitem__` (properties.py:541-560). -/
def vecSet (o : Oid) (pid : Pid) (i : Int) (x : Oid) : M Unit := writeonly o do
  let v ← vecOf o pid
  let j := clamp i v.refs.length
  if j ≥ v.refs.length then raise .indexError
  else do
    checkFree x
    match ← vecGet o pid j with
    | none => pure ()
    | some c => detachAll c
    let v ← vecOf o pid
    put o pid (.vec { v with objs := upd v.objs (j : Nat) (some x) })
    let n ← enough
    attachVec (attach n) o pid

/-- One turn of `clear` (properties.py:564-565). -/
def vecClearStep (o : Oid) (pid : Pid) (i : Nat) : M Unit := do
  match ← vecGet o pid i with
  | none => raise .attributeError
  | some c => detachAll c

/-- `StrongRefVectorProperty.clear` (properties.py:562-573). -/
def vecClear (o : Oid) (pid : Pid) : M Unit := writeonly o do
  let v ← vecOf o pid
  each (List.range v.refs.length) (vecClearStep o pid)
  put o pid (.vec .empty)

/-- The dictionary of a vector after `pop` (properties.py:585-598). -/
def shiftDown (f : Int → Option Oid) (j : Nat) : Int → Option Oid :=
  fun i => if i < j then f i else f (i + 1)

/-- `StrongRefVectorProperty.pop` (properties.py:575-603). -/
def vecPop (o : Oid) (pid : Pid) (i : Int) : M Oid := writeonly o do
  match ← vecGet o pid i with
  | none => raise .indexError
  | some c => do
    let v ← vecOf o pid
    let j := clamp i v.refs.length
    put o pid (.vec ⟨v.refs.eraseIdx j, v.next, shiftDown v.objs j⟩)
    match v.objs (j : Nat) with
    | none => raise .unboundLocal
    | some d => if c = d then do detachAll c; pure c else raise .assertion

/-- `references.insert(index, key)` of a Python list. (Used in `vecInsert`: properties.py:605-625.) -/
def pyInsert {α : Type} (l : List α) (i : Int) (a : α) : List α :=
  let n := if i < 0 then (max 0 (l.length + i)).toNat else min i.toNat l.length
  l.take n ++ a :: l.drop n

/-- The dictionary of a vector after `insert` (properties.py:611-623). -/
def shiftUp (f : Int → Option Oid) (i : Int) (x : Oid) : Int → Option Oid :=
  fun k => if k = i then some x else if k < i then f k else f (k - 1)

/-- `StrongRefVectorProperty.insert` (properties.py:605-625).  It does not add the entry. -/
def vecInsert (o : Oid) (pid : Pid) (i : Int) (x : Oid) : M Unit := writeonly o do
  let old ← entry o pid
  let v ← vecOf o pid
  add o pid (.vec ⟨pyInsert v.refs i v.next, v.next + 1, shiftUp v.objs i x⟩)
  let n ← enough
  attachVec (attach n) o pid
  match old with
  | none => remove o pid
  | some _ => pure ()

/-- `StrongRefVectorProperty.value = vs` (properties.py:657-665). -/
def vecAssign (o : Oid) (pid : Pid) (vs : List Oid) : M Unit := writeonly o do
  vecClear o pid
  vecExtend o pid vs

/-- The members of a set in order: `items` (properties.py:826-833). -/
def setItems (o : Oid) (pid : Pid) : M (List Oid) := do
  let v ← setOf o pid
  collect v.refs fun k => do
    let c ← setGet o pid k.1
    pure c.toList

/-- The keys of a set in order (properties.py:826-829). -/
def setKeys (o : Oid) (pid : Pid) : M (List Key) := do
  let v ← setOf o pid
  pure (v.refs.map (·.1))

/-- `len(prop)` for a set (properties.py:838-839). -/
def setLen (o : Oid) (pid : Pid) : M Nat := do
  let v ← setOf o pid
  pure v.refs.length

/-- `key in prop` (properties.py:823-824). -/
def setHas (o : Oid) (pid : Pid) (k : Key) : M Bool := do
  let v ← setOf o pid
  pure (v.refs.lookup k).isSome

/-- One turn of `StrongRefSetProperty.extend` (properties.py:895-914).  The entry is there from the
first turn on: see `setExtend`. -/
def setExtendStep (o : Oid) (pid : Pid) (x : Oid) : M Unit := do
  let xb ← getObj x
  match xb.key with
  | none => raise .propertyError
  | some k => do
    let v ← setOf o pid
    match v.objs k with
    | some c => if c = x then pure () else detachAll c
    | none => pure ()
    let v ← setOf o pid
    let v' : SetP :=
      match v.refs.lookup k with
      | none => ⟨v.refs ++ [(k, v.next)], v.next + 1, upd v.objs k (some x)⟩
      | some _ => { v with objs := upd v.objs k (some x) }
    put o pid (.set v')
    match v'.refs.lookup k with
    | none => raise .keyError
    | some l => do
      let n ← enough
      attachItem (attach n) o (.item pid l) x

/-- `StrongRefSetProperty.extend` of a list (properties.py:868-916).  In the code the entry is added
at the end; the model adds it before the loop, which makes a difference only if the loop raises. -/
def setExtend (o : Oid) (pid : Pid) (xs : List Oid) : M Unit := writeonly o do
  each xs checkFree
  let v ← setOf o pid
  add o pid (.set v)
  each xs (setExtendStep o pid)

/-- One turn of `clear` (properties.py:923-924). -/
def setClearStep (o : Oid) (pid : Pid) (k : Key) : M Unit := do
  match ← setGet o pid k with
  | none => raise .attributeError
  | some c => detachAll c

/-- `StrongRefSetProperty.clear` (properties.py:921-930). -/
def setClear (o : Oid) (pid : Pid) : M Unit := writeonly o do
  let v ← setOf o pid
  each (v.refs.map (·.1)) (setClearStep o pid)
  put o pid (.set .empty)

/-- `StrongRefSetProperty.pop` (properties.py:932-943). -/
def setPop (o : Oid) (pid : Pid) (k : Key) : M Oid := writeonly o do
  match ← setGet o pid k with
  | none => raise .keyError
  | some c => do
    let v ← setOf o pid
    put o pid (.set ⟨v.refs.filter (·.1 != k), v.next, upd v.objs k none⟩)
    detachAll c
    pure c

/-- `StrongRefSetProperty.value = xs` (properties.py:949-961), of a list. -/
def setAssign (o : Oid) (pid : Pid) (xs : List Oid) : M Unit := writeonly o do
  setClear o pid
  setExtend o pid xs

/-- `old = prop.get(x.unique_key); prop.append(x)`. (Made of `Oid` properties.py:406-421, `Pid` properties.py:368, `M` core.py:221-239, `raise` core.py:302-323 and others.) -/
def setSwap (o : Oid) (pid : Pid) (x : Oid) : M (Option Oid) := do
  let xb ← getObj x
  match xb.key with
  | none => raise .propertyError
  | some k => do
    let c ← setGet o pid k
    setExtend o pid [x]
    pure c

/-- `references[new_key] = local_key` of a dictionary. (Used in `swapKey`: properties.py:852-866.) -/
def kset (k : Key) (n : Nat) : List (Key × Nat) → List (Key × Nat)
  | [] => [(k, n)]
  | (q, x) :: l => if q = k then (q, n) :: l else (q, x) :: kset k n l

/-- `StrongRefSetProperty.swap_unique_key` (properties.py:852-866). -/
def swapKey (o : Oid) (pid : Pid) (a b : Key) : M Oid := writeonly o do
  match ← setGet o pid a with
  | none => raise .valueError
  | some c => do
    let v ← setOf o pid
    match v.refs.lookup a with
    | none => raise .keyError
    | some n => do
      put o pid (.set ⟨kset b n (v.refs.filter (·.1 != a)), v.next, upd (upd v.objs a none) b (some c)⟩)
      let cb ← getObj c
      setObj c { cb with key := some b }
      pure c

/-- `Property.value = b` for the unique key of a member of the set (`mobs` or `essencedata`),
attached (properties.py:150-166): the set files it under the new key, and the property is written
as usual. -/
def rekey (o : Oid) (pid : Pid) (c : Oid) (b : Key) : M Unit := writeonly c do
  let cb ← getObj c
  match cb.key with
  | none => raise .propertyError
  | some a => do
    let _ ← swapKey o pid a b
    let cb ← getObj c
    setObj c { cb with key := some b }

/-! ## Files -/

/-- What `write_properties` writes (core.py:135-167). -/
def Obj.record (ob : Obj) : Rec := ⟨ob.key, ob.pids, fun pid => (ob.prp pid).map Prp.store⟩

/-- `write_objects` (file.py:132-144): every modified object is written into its storage. -/
def saveAll : List (Place × Oid) → M Unit
  | [] => fun w => (.ok (), { w with modified := [] })
  | (_, o) :: l => do
    let ob ← getObj o
    match ob.dir with
    | none => raise .attributeError
    | some p => do
      (fun w => (.ok (), { w with disk := upd w.disk p (some (o, ob.record)), log := w.log ++ [.write p ob.record] }) : M Unit)
      saveAll l

/-- `AAFFile.save` as far as objects go (file.py:361-370). -/
def save : M Unit := fun w =>
  if w.ro then (.ok (), w) else saveAll w.modified w

/-- A weak reference to `c` has died. (Used in `evict`: properties.py:297-313, 418-421.) -/
def Prp.drop (c : Oid) : Prp → Prp
  | .data b => .data b
  | .one x => .one (if x = some c then none else x)
  | .vec v => .vec { v with objs := fun i => if v.objs i = some c then none else v.objs i }
  | .set v => .set { v with objs := fun i => if v.objs i = some c then none else v.objs i }

/-- Used in `evict`: properties.py:297-313, 418-421. -/
def Obj.drop (c : Oid) (ob : Obj) : Obj := { ob with prp := fun pid => (ob.prp pid).map (Prp.drop c) }

/-- The Python object `c` is collected: only when it is in no variable of the program, is not held
by `modified`, and is attached, so that the references of its owner are weak
(properties.py:297-313, 418-421, file.py:69-72).  Object 0 is `AAFFile.root`. -/
def evict (c : Oid) : M Unit := fun w =>
  match w.heap c with
  | none => (.ok (), w)
  | some ob =>
    match ob.dir with
    | none => (.ok (), w)
    | some p =>
      if c = 0 ∨ c ∈ w.held ∨ c ∈ w.modified.map (·.2) then (.ok (), w)
      else (.ok (), { w with
        heap := fun x => if x = c then none else (w.heap x).map (Obj.drop c)
        man := upd w.man p none })

/-- The world of a program that has just opened the file again: nothing is in memory but the root
(file.py:205-220). -/
def opened (ro : Bool) (w : World) : Res Unit × World :=
  let w : World := { w with ro := ro, heap := fun _ => none, man := fun _ => none, modified := [], held := [0], log := w.log ++ [.reopen] }
  match readObj [] w with
  | (.ok _, w) => (.ok (), w)
  | (.error e, w) => (.error e, w)

/-- `close` and `open` again (file.py:372-380). -/
def reopen (ro : Bool) : M Unit := do
  save
  opened ro

/-- The `with` block is left by an exception (file.py:345-353): nothing is written; then the file is
opened again. -/
def abort (ro : Bool) : M Unit := opened ro

/-- A new file (file.py:246-250): a root object, attached and modified.  Its class is 1; 0 is the class of
an `AAFObject` without a class id (metadict.py:511-524, cfb.py:596-609). -/
def newWorld : World :=
  { ro := false
    heap := upd (fun _ => none) 0 (some ⟨some [], none, [], fun _ => none, 1⟩)
    next := 1
    disk := fun _ => none
    dirs := upd (fun _ => false) [] true
    man := upd (fun _ => none) [] (some 0)
    modified := [([], 0)]
    held := [0]
    cls := upd (fun _ => 0) [] 1
    log := [.setCls [] 1] }

/-- `f.create.Name()` (file.py:41-60).  What `__init__` sets is set by further calls, but for the
unique key. -/
def create (key : Option Key) (cls : Nat) : M Oid := fun w =>
  (.ok w.next, { w with
    heap := upd w.heap w.next (some ⟨none, key, [], fun _ => none, cls⟩)
    next := w.next + 1 })

/-! ## Programs -/

/-- What a program can do.  `bytes` and so on are calls on one property of one object; the program
can only name objects that are in its variables.  `forget` is the end of a variable, `collect` a
step of the garbage collector. (Made of `Oid` properties.py:406-421, `Key` properties.py:692-711, `Pid` properties.py:368, `collect` core.py:221-239 and others.) -/
inductive Call where
  | create (key : Option Key) (cls : Nat)
  | keyOf (o : Oid) | classOf (o : Oid) | propsOf (o : Oid)
  | getData (o : Oid) (pid : Pid) | setData (o : Oid) (pid : Pid) (b : Bytes)
  | drop (o : Oid) (pid : Pid) | delete (o : Oid) (pid : Pid) | setKey (c : Oid) (k : Key)
  | oneGet (o : Oid) (pid : Pid) | oneSet (o : Oid) (pid : Pid) (v : Oid)
  | oneSwap (o : Oid) (pid : Pid) (v : Oid) | oneTake (o : Oid) (pid : Pid)
  | vecItems (o : Oid) (pid : Pid) | vecLen (o : Oid) (pid : Pid) | vecAt (o : Oid) (pid : Pid) (i : Int)
  | vecExtend (o : Oid) (pid : Pid) (vs : List Oid) | vecSet (o : Oid) (pid : Pid) (i : Int) (v : Oid)
  | vecClear (o : Oid) (pid : Pid) | vecPop (o : Oid) (pid : Pid) (i : Int)
  | vecInsert (o : Oid) (pid : Pid) (i : Int) (v : Oid) | vecAssign (o : Oid) (pid : Pid) (vs : List Oid)
  | setItems (o : Oid) (pid : Pid) | setKeys (o : Oid) (pid : Pid) | setLen (o : Oid) (pid : Pid)
  | setHas (o : Oid) (pid : Pid) (k : Key) | setGet (o : Oid) (pid : Pid) (k : Key)
  | setExtend (o : Oid) (pid : Pid) (vs : List Oid) | setSwap (o : Oid) (pid : Pid) (v : Oid)
  | setClear (o : Oid) (pid : Pid) | setPop (o : Oid) (pid : Pid) (k : Key)
  | setAssign (o : Oid) (pid : Pid) (vs : List Oid) | rekey (o : Oid) (pid : Pid) (c : Oid) (k : Key)
  | forget (c : Oid) | collect (c : Oid)
  | save | reopen (ro : Bool) | abort (ro : Bool)

/-- What a call returns. (Used in `keyOf`: core.py:54-68.) -/
inductive Ans where
  | none
  | obj (c : Oid)
  | objs (l : List Oid)
  | key (k : Key)
  | keys (l : List Key)
  | bytes (b : Bytes)
  | num (n : Nat)
  | flag (b : Bool)
  deriving DecidableEq

/-- Objects that were returned are in variables. (Made of `Oid` properties.py:406-421, `M` core.py:221-239.) -/
def keep (l : List Oid) : M Unit := fun w => (.ok (), { w with held := l ++ w.held })

/-- The end of all variables for `c`. (Made of `Oid` properties.py:406-421, `M` core.py:221-239.) -/
def unkeep (c : Oid) : M Unit := fun w => (.ok (), { w with held := w.held.filter (· != c) })

/-- `None`. (Made of `M` core.py:221-239, `Ans` core.py:54-68.) -/
def quiet (m : M Unit) : M Ans := do m; pure .none

/-- Made of `Oid` properties.py:406-421, `M` core.py:221-239, `Ans` core.py:54-68. -/
def retObj (m : M Oid) : M Ans := do
  let c ← m
  keep [c]
  pure (.obj c)

/-- Made of `Oid` properties.py:406-421, `M` core.py:221-239, `Ans` core.py:54-68. -/
def retOpt (m : M (Option Oid)) : M Ans := do
  match ← m with
  | none => pure .none
  | some c => do keep [c]; pure (.obj c)

/-- Made of `Oid` properties.py:406-421, `M` core.py:221-239, `Ans` core.py:54-68. -/
def retObjs (m : M (List Oid)) : M Ans := do
  let l ← m
  keep l
  pure (.objs l)

/-- `obj.unique_key` (core.py:54-68), `None` where it raises. -/
def keyOf (o : Oid) : M Ans := do
  let ob ← getObj o
  match ob.key with
  | none => pure .none
  | some k => pure (.key k)

/-- `obj.class_id`. (Made of `Oid` properties.py:406-421, `M` core.py:221-239, `getObj` properties.py:168-171, `Ans` core.py:54-68.) -/
def classOf (o : Oid) : M Ans := do
  let ob ← getObj o
  pure (.num ob.cls)

/-- `obj.property_entries.keys()` (core.py:282-300). -/
def propsOf (o : Oid) : M Ans := do
  let ob ← getObj o
  pure (.keys ob.pids)

/-- One call. (Made of `M` core.py:221-239, `forget` file.py:89-95, `oneGet` properties.py:340-348, `setGet` properties.py:811-821, 841-844 and others.) -/
def Call.run : Call → M Ans
  | .create key cls => retObj (Graph.create key cls)
  | .keyOf o => Graph.keyOf o
  | .classOf o => Graph.classOf o
  | .propsOf o => Graph.propsOf o
  | .getData o pid => do
    match ← Graph.getData o pid with
    | none => pure .none
    | some b => pure (.bytes b)
  | .setData o pid b => quiet (Graph.setData o pid b)
  | .drop o pid => quiet (dropProp o pid)
  | .delete o pid => quiet (delItem o pid)
  | .setKey c k => quiet (Graph.setKey c k)
  | .oneGet o pid => retOpt (Graph.oneGet o pid)
  | .oneSet o pid v => quiet (Graph.oneSet o pid v)
  | .oneSwap o pid v => retOpt (Graph.oneSwap o pid v)
  | .oneTake o pid => retOpt (Graph.oneTake o pid)
  | .vecItems o pid => retObjs (Graph.vecItems o pid)
  | .vecLen o pid => do let n ← Graph.vecLen o pid; pure (.num n)
  | .vecAt o pid i => retObj (Graph.vecAt o pid i)
  | .vecExtend o pid vs => quiet (Graph.vecExtend o pid vs)
  | .vecSet o pid i v => quiet (Graph.vecSet o pid i v)
  | .vecClear o pid => quiet (Graph.vecClear o pid)
  | .vecPop o pid i => retObj (Graph.vecPop o pid i)
  | .vecInsert o pid i v => quiet (Graph.vecInsert o pid i v)
  | .vecAssign o pid vs => quiet (Graph.vecAssign o pid vs)
  | .setItems o pid => retObjs (Graph.setItems o pid)
  | .setKeys o pid => do let l ← Graph.setKeys o pid; pure (.keys l)
  | .setLen o pid => do let n ← Graph.setLen o pid; pure (.num n)
  | .setHas o pid k => do let b ← Graph.setHas o pid k; pure (.flag b)
  | .setGet o pid k => retOpt (Graph.setGet o pid k)
  | .setExtend o pid vs => quiet (Graph.setExtend o pid vs)
  | .setSwap o pid v => retOpt (Graph.setSwap o pid v)
  | .setClear o pid => quiet (Graph.setClear o pid)
  | .setPop o pid k => retObj (Graph.setPop o pid k)
  | .setAssign o pid vs => quiet (Graph.setAssign o pid vs)
  | .rekey o pid c k => quiet (Graph.rekey o pid c k)
  | .forget c => quiet (unkeep c)
  | .collect c => quiet (evict c)
  | .save => quiet Graph.save
  | .reopen ro => quiet (Graph.reopen ro)
  | .abort ro => quiet (Graph.abort ro)

/-- A program: its calls one after the other, whatever they raise. (Made of `World` file.py:205-220, `Call` properties.py:406-421, `Ans` core.py:54-68, `Call.run` core.py:221-239.) -/
def runs : List Call → World → List (Res Ans) × World
  | [], w => ([], w)
  | c :: cs, w => ((c.run w).1 :: (runs cs (c.run w).2).1, (runs cs (c.run w).2).2)

end Verif.Graph
