import Verif.Model.Bytes
/-!
# Properties as Python objects (`/repo/src/aaf2/core.py` 300-352, `/repo/src/aaf2/properties.py` 70-176)

`obj[name]` gives a property object, which a program can keep.  The properties with data of one object are modelled; a property object is its place in `heap`.

Simplifications: values are bytes (their encoding is in C06-C11); the file is writeable, and the property is not a unique one of an attached object
(properties.py:153-159); that an object is noted as changed is in C68; names are numbers.
-/
namespace Verif.Handles

/-- One object: `defs` are the names and pids of `all_propertydefs` of its class, `heap` the pid and `data` of every property object made for it, `entries` are
`property_entries` (core.py:37), in order. -/
structure Obj where
  defs : List (Nat × Nat)
  heap : List (Nat × Option Bytes)
  entries : List (Nat × Nat)

/-- `Property.name` of a property with the pid (properties.py:104-122, 126-130). -/
def nameOf (defs : List (Nat × Nat)) (pid : Nat) : Option Nat := (defs.find? fun d => d.2 == pid).map (·.1)

/-- `property_entries.get(pid)`. (Used in `addEntry`: properties.py:168-171.) -/
def entryOf (es : List (Nat × Nat)) (pid : Nat) : Option Nat := (es.find? fun e => e.1 == pid).map (·.2)

/-- The first loop of `get` (core.py:303-305). -/
def find (o : Obj) (name : Nat) : Option (Nat × Nat) := o.entries.find? fun e => nameOf o.defs e.1 == some name

/-- `obj[name]` (core.py:302-323, 334-338): the property that is there, or a new one that is not put into `property_entries`. -/
def getItem (o : Obj) (name : Nat) : Obj × Res Nat :=
  match find o name with
  | some e => (o, .ok e.2)
  | none =>
    match o.defs.find? fun d => d.1 == name with
    | some d => ({ o with heap := o.heap ++ [(d.2, none)] }, .ok o.heap.length)
    | none => (o, .error .keyError)

/-- `p.value` (properties.py:143-148). -/
def value (o : Obj) (i : Nat) : Option Bytes :=
  match o.heap[i]? with
  | some p => p.2
  | none => none

/-- `add_pid_entry` (properties.py:168-171). -/
def addEntry (es : List (Nat × Nat)) (pid i : Nat) : List (Nat × Nat) := if (entryOf es pid).isSome then es else es ++ [(pid, i)]

/-- `remove_pid_entry` (properties.py:173-175). -/
def removeEntry (es : List (Nat × Nat)) (pid : Nat) : List (Nat × Nat) := es.filter fun e => e.1 != pid

/-- `p.value = v` (properties.py:150-166). -/
def setValue (o : Obj) (i : Nat) (v : Option Bytes) : Obj :=
  match o.heap[i]? with
  | none => o
  | some p =>
    match v with
    | none => { o with entries := removeEntry o.entries p.1 }
    | some b => { o with heap := o.heap.set i (p.1, some b), entries := addEntry o.entries p.1 i }

/-- `del obj[name]` (core.py:340-347). -/
def delItem (o : Obj) (name : Nat) : Obj × Res Unit :=
  match find o name with
  | some e => ({ o with entries := removeEntry o.entries e.1 }, .ok ())
  | none => (o, .error .keyError)

/-- `obj.getvalue(name)` (core.py:325-332). -/
def getValue (o : Obj) (name : Nat) : Option Bytes :=
  match find o name with
  | some e => value o e.2
  | none => none

/-- Calls; properties are named by their numbers. (Used in `step`: core.py:349-353.) -/
inductive Op where
  | item (name : Nat)
  | read (i : Nat)
  | write (i : Nat) (v : Option Bytes)
  | delete (name : Nat)
  | contains (name : Nat)
  | getvalue (name : Nat)

/-- What a call gives. (Used in `step`: core.py:349-353.) -/
inductive Out where
  | handle (i : Nat)
  | value (v : Option Bytes)
  | bool (b : Bool)
  | done
  deriving DecidableEq

/-- One call; `name in obj` is core.py:349-353. -/
def step (o : Obj) : Op → Obj × Res Out
  | .item n => ((getItem o n).1, (getItem o n).2.map .handle)
  | .read i => (o, .ok (.value (value o i)))
  | .write i v => (setValue o i v, .ok .done)
  | .delete n => ((delItem o n).1, (delItem o n).2.map fun _ => .done)
  | .contains n => (o, .ok (.bool (find o n).isSome))
  | .getvalue n => (o, .ok (.value (getValue o n)))

/-- Several calls, whose exceptions are caught. (Made of `Obj` core.py:37, `Op` core.py:349-353.) -/
def run (o : Obj) : List Op → Obj × List (Res Out)
  | [] => (o, [])
  | c :: cs => ((run (step o c).1 cs).1, (step o c).2 :: (run (step o c).1 cs).2)

/-- `obj[name].value = v`: the property is not kept. (Made of `Obj` core.py:37, `getItem` core.py:302-323, 334-338, `setValue` properties.py:150-166, `Out` core.py:349-353.) -/
def put (o : Obj) (name : Nat) (v : Option Bytes) : Obj × Res Out :=
  match getItem o name with
  | (o, .error e) => (o, .error e)
  | (o, .ok i) => (setValue o i v, .ok .done)

/-- `obj[name].value`: the property is not kept. (Made of `Obj` core.py:37, `getItem` core.py:302-323, 334-338, `value` properties.py:143-148, `Out` core.py:349-353.) -/
def look (o : Obj) (name : Nat) : Obj × Res Out :=
  match getItem o name with
  | (o, .error e) => (o, .error e)
  | (o, .ok i) => (o, .ok (.value (value o i)))

/-- What a program does that keeps no properties. (Made of `put` core.py:37.) -/
inductive Use where
  | put (name : Nat) (v : Option Bytes)
  | look (name : Nat)
  | delete (name : Nat)
  | contains (name : Nat)
  | getvalue (name : Nat)

/-- One such line (see `step`). (Made of `Obj` core.py:37, `Out` core.py:349-353.) -/
def useStep (o : Obj) : Use → Obj × Res Out
  | .put n v => put o n v
  | .look n => look o n
  | .delete n => step o (.delete n)
  | .contains n => step o (.contains n)
  | .getvalue n => step o (.getvalue n)

/-- Several such lines. (Made of `Obj` core.py:37, `Out` core.py:349-353.) -/
def runUses (o : Obj) : List Use → Obj × List (Res Out)
  | [] => (o, [])
  | u :: us => ((runUses (useStep o u).1 us).1, (useStep o u).2 :: (runUses (useStep o u).1 us).2)

/-- An object that was read (core.py:93-102): a property object for each entry. -/
def ofFile (defs : List (Nat × Nat)) (l : List (Nat × Bytes)) : Obj :=
  ⟨defs, l.map fun x => (x.1, some x.2), l.zipIdx.map fun x => (x.1.1, x.2)⟩

end Verif.Handles
