import Verif.Model.Bytes
/-!
# Saving changed objects (`/repo/src/aaf2/file.py` 65-145, 361-380, `/repo/src/aaf2/core.py` 70-167)

Objects are named by the path of their storage.  The manager holds the objects that were changed; others can be dropped at any time, by the garbage collector or
because of the bound of the cache, and are read again (`evict`).

Simplifications: the properties of an object are pids with bytes (values, C06-C11; references and their indexes, C49, C50; how the stream is laid out, C12).
Attaching is by a property that holds one object, which detaches what was there (properties.py:371-400).  Unique properties are not changed while attached.
Nobody asks for a path from which the object was detached, and nothing but `save` and `close` is called for a closed file.
-/
namespace Verif.Saving

/-- `property_entries`, in order (core.py:33-38); a property can be there without data (properties.py:1293-1298). -/
abbrev Entries := List (Nat × Option Bytes)

/-- An `AAFObject`: its class and `property_entries`. (Used in `File`: core.py:114-124.) -/
structure Obj where
  cls : Nat
  entries : Entries
  deriving DecidableEq

/-- The stream `properties` of a storage: none, one without bytes, or one with properties. (Used in `File`: core.py:114-124.) -/
inductive Stored where
  | absent
  | empty
  | props (l : List (Nat × Bytes))

/-- `required` are the pids of the properties of a class and those it inherits from that are not optional, without `ObjClass` (core.py:114-124); `cache` are the
objects of `path_cache`, `modified` the keys of `modified`, in order (file.py:67-72); `classes` the class ids of the storages with an object. -/
structure File where
  required : Nat → List Nat
  cache : Nat → Option Obj
  modified : List Nat
  classes : Nat → Option Nat
  streams : Nat → Stored
  closed : Bool

/-- Changing an entry of a map. (Used in `load`: file.py:101-130.) -/
def upd {β : Type} (f : Nat → β) (k : Nat) (v : β) : Nat → β := fun j => if j = k then v else f j

/-- `property_entries.get(pid)`. (Used in `setEntry`: properties.py:150-171.) -/
def lookup (es : Entries) (pid : Nat) : Option (Option Bytes) := (es.find? fun e => e.1 == pid).map (·.2)

/-- The value of a property is set (properties.py:150-171): one that is there keeps its place. -/
def setEntry (es : Entries) (pid : Nat) (v : Bytes) : Entries :=
  if (lookup es pid).isSome then es.map fun e => if e.1 = pid then (pid, some v) else e else es ++ [(pid, some v)]

/-- `remove_pid_entry` (properties.py:173-175), `__delitem__` (core.py:340-347). -/
def delEntry (es : Entries) (pid : Nat) : Entries := es.filter fun e => e.1 != pid

/-- `read_properties` (core.py:70-109): no stream is no properties, and one without bytes raises in `unpack`. -/
def readProps : Stored → Res Entries
  | .absent => .ok []
  | .empty => .error .structError
  | .props l => .ok (l.map fun e => (e.1, some e.2))

/-- `read_object` (file.py:101-130). -/
def load (F : File) (p : Nat) : File × Res Obj :=
  match F.cache p with
  | some o => (F, .ok o)
  | none =>
    match F.classes p with
    | none => (F, .error .valueError)
    | some c =>
      match readProps (F.streams p) with
      | .error e => (F, .error e)
      | .ok es => ({ F with cache := upd F.cache p (some ⟨c, es⟩) }, .ok ⟨c, es⟩)

/-- `add_modified` (file.py:81-87): a key that is there keeps its place. -/
def addModified (F : File) (p : Nat) (o : Obj) : File :=
  { F with modified := if p ∈ F.modified then F.modified else F.modified ++ [p], cache := upd F.cache p (some o) }

/-- `obj[key].value` of a property with data. (Made of `File` core.py:114-124, `lookup` properties.py:150-171, `load` file.py:101-130.) -/
def getValue (F : File) (p pid : Nat) : File × Res (Option Bytes) :=
  match load F p with
  | (F, .error e) => (F, .error e)
  | (F, .ok o) => (F, .ok ((lookup o.entries pid).getD none))

/-- `obj[key].value = v`, where `None` removes the property (properties.py:150-166, 59-67). -/
def setValue (F : File) (p pid : Nat) (v : Option Bytes) : File × Res (Option Bytes) :=
  match load F p with
  | (F, .error e) => (F, .error e)
  | (F, .ok o) =>
    match v with
    | some b => (addModified F p ⟨o.cls, setEntry o.entries pid b⟩, .ok none)
    | none => (addModified F p ⟨o.cls, delEntry o.entries pid⟩, .ok none)

/-- `detach` (core.py:169-198) with `pop` (file.py:89-95); the storage stays (core.py:187-191). -/
def detach (F : File) (p : Nat) : File :=
  { F with modified := F.modified.filter (· != p), cache := upd F.cache p none, classes := upd F.classes p none }

/-- `attach` (core.py:200-216) of a new object, after what is there is detached. -/
def attach (F : File) (p : Nat) (o : Obj) : File :=
  addModified { detach F p with classes := upd F.classes p (some o.cls) } p o

/-- The properties that `validate` misses (core.py:111-133). -/
def missing (F : File) (o : Obj) : List Nat := (F.required o.cls).filter fun pid => (lookup o.entries pid).isNone

/-- The entries of the stream (core.py:150-154). -/
def items : Entries → Res (List (Nat × Bytes))
  | [] => .ok []
  | (_, none) :: _ => .error .assertion
  | (pid, some b) :: es =>
    if 65536 ≤ pid ∨ 65536 ≤ b.length then .error .structError
    else
      match items es with
      | .error e => .error e
      | .ok l => .ok ((pid, b) :: l)

/-- The content of the stream (core.py:141-158). -/
def content (es : Entries) : Res (List (Nat × Bytes)) := if 65536 ≤ es.length then .error .structError else items es

/-- `dir.touch("properties")` (core.py:139, cfb.py:1042-1052). -/
def touch : Stored → Stored
  | .absent => .empty
  | s => s

/-- `write_properties` (core.py:135-167): it validates first, and the content is complete before it is written. -/
def writeObj (F : File) (p : Nat) : File × Res Unit :=
  match F.cache p with
  | none => (F, .error .valueError)
  | some o =>
    if missing F o ≠ [] then (F, .error .propertyError)
    else
      match content o.entries with
      | .error e => ({ F with streams := upd F.streams p (touch (F.streams p)) }, .error e)
      | .ok l => ({ F with streams := upd F.streams p (.props l) }, .ok ())

/-- The loop of `write_objects` (file.py:134-140). -/
def writeAll (F : File) : List Nat → File × Res Unit
  | [] => (F, .ok ())
  | p :: ps =>
    match writeObj F p with
    | (F, .error e) => (F, .error e)
    | (F, .ok _) => writeAll F ps

/-- `save` (file.py:361-370, 132-144). -/
def save (F : File) : File × Res (Option Bytes) :=
  if F.closed then (F, .error .ioError)
  else
    match writeAll F F.modified with
    | (F, .error e) => (F, .error e)
    | (F, .ok _) => ({ F with modified := [] }, .ok none)

/-- `close` (file.py:372-380): what raises in `save` leaves the file open. -/
def close (F : File) : File × Res (Option Bytes) :=
  match save F with
  | (F, .error e) => (F, .error e)
  | (F, .ok _) => ({ F with closed := true }, .ok none)

/-- Calls, and `evict`, which can happen at any time to an object that is not in `modified`. (Made of `Obj` core.py:114-124, `detach` core.py:169-198, `attach` core.py:200-216, `save` file.py:361-370, 132-144 and others.) -/
inductive Op where
  | attach (p : Nat) (o : Obj)
  | detach (p : Nat)
  | get (p pid : Nat)
  | set (p pid : Nat) (v : Option Bytes)
  /-- `register_propertydef` of a property that is not optional (metadict.py:237-267) -/
  | require (cls pid : Nat)
  | evict (p : Nat)
  | save
  | close

/-- One call. (Made of `File` core.py:114-124, `upd` file.py:101-130, `setValue` properties.py:150-166, 59-67, `detach` core.py:169-198 and others.) -/
def step (F : File) : Op → File × Res (Option Bytes)
  | .attach p o => (attach F p o, .ok none)
  | .detach p => (detach F p, .ok none)
  | .get p pid => getValue F p pid
  | .set p pid v => setValue F p pid v
  | .require c pid => ({ F with required := upd F.required c (F.required c ++ [pid]) }, .ok none)
  | .evict p => (if p ∈ F.modified then F else { F with cache := upd F.cache p none }, .ok none)
  | .save => save F
  | .close => close F

/-- Several calls, whose exceptions are caught. (Made of `File` core.py:114-124.) -/
def run (F : File) : List Op → File × List (Res (Option Bytes))
  | [] => (F, [])
  | o :: os => ((run (step F o).1 os).1, (step F o).2 :: (run (step F o).1 os).2)

/-- What a reader finds at a path: its class and properties (file.py:118-126). -/
def stored (F : File) (p : Nat) : Res Obj :=
  match F.classes p with
  | none => .error .valueError
  | some c =>
    match readProps (F.streams p) with
    | .error e => .error e
    | .ok es => .ok ⟨c, es⟩

/-- Opening the file again (file.py:187-222): nothing is cached and nothing is changed. -/
def reopen (F : File) : File := { F with cache := fun _ => none, modified := [], closed := false }

end Verif.Saving
