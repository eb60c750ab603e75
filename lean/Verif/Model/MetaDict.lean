import Verif.Model.Bytes
/-!
# Class definitions and properties by name

`/repo/src/aaf2/metadict.py` (class and property definitions, registration, reading the definitions of a file) and
the part of `core.py` (287-353) and `properties.py` (69-175) that finds a property of an object by its name.

Simplifications:

* Identifiers and names are numbers.  A property names its type by the identifier; types are not objects here, so the
  loop over type definitions in `read_properties` (metadict.py:581-607) is left out.
* What a type does with values is a parameter (`Codec`).
* The class of an object is its identifier; the Python helper classes and what their constructors set are left out.
* The test on unique properties of attached objects (properties.py:153-160) is left out, see C33.
* An object and its stored properties are the same thing here (saving and reading them is C12, C49, C50).
-/
namespace Verif.Meta

/-- Used in `PDef`: metadict.py:34-53. -/
abbrev Auid := Nat
/-- Used in `PDef`: metadict.py:34-53. -/
abbrev Name := Nat

/-- `PropertyDef` (metadict.py:34-53). -/
structure PDef where
  auid : Auid
  name : Name
  pid : Nat
  type : Auid
  optional : Bool
  unique : Bool
  deriving DecidableEq

/-- What is stored of a `ClassDef` (metadict.py:128-145); `props` is the set `Properties` in its order. -/
structure FCls where
  auid : Auid
  name : Name
  parent : Auid
  concrete : Bool
  props : List PDef
  deriving DecidableEq

/-- A `ClassDef` object (metadict.py:128-145): with `propertydef_by_pid`, which names the definitions of the class by
their identifiers. -/
structure Cls extends FCls where
  byPid : List (Nat × Auid)
  deriving DecidableEq

/-- The arguments for a property (metadict.py:237). -/
structure PArgs where
  auid : Auid
  name : Name
  pid : Option Nat
  type : Auid
  optional : Bool
  unique : Bool
  deriving DecidableEq

/-- The arguments for a class (metadict.py:398). -/
structure CArgs where
  name : Name
  auid : Auid
  parent : Option Auid
  concrete : Bool
  props : List PArgs
  deriving DecidableEq

/-- `dict.get`. (Used in `target`: metadict.py:412-417.) -/
def get {α : Type} : List (Nat × α) → Nat → Option α
  | [], _ => none
  | (a, b) :: l, k => if a = k then some b else get l k

/-- `dict[k] = v`: the place of a key that is there is kept. (Used in `Cls.add`: metadict.py:259-266.) -/
def put {α : Type} : List (Nat × α) → Nat → α → List (Nat × α)
  | [], k, v => [(k, v)]
  | (a, b) :: l, k, v => if a = k then (k, v) :: l else (a, b) :: put l k v

/-- `MetaDictionary` (metadict.py:318-351).  `heap` are the `ClassDef` objects, which the dictionaries name by their
place; `stored` is the set `ClassDefinitions`. -/
structure Dict where
  heap : List Cls
  byName : List (Name × Nat)
  byAuid : List (Auid × Nat)
  stored : List (Auid × Nat)
  localPids : List Nat
  nextPid : Nat
  deriving DecidableEq

/-- The object with this identifier (`classdefs_by_auid.get`). (Used in `relatives`: metadict.py:269-273.) -/
def Dict.cls (d : Dict) (a : Auid) : Option Cls := (get d.byAuid a).bind fun i => d.heap[i]?

/-! ## Registration -/

/-- The loop of `next_free_pid` (metadict.py:549-552): the new `next_pid` and whether it raised.  The first argument
bounds the number of rounds; `next_pid` of them are enough. -/
def skip (used : List Nat) : Nat → Nat → Nat × Bool
  | 0, n => (n, true)
  | f + 1, n => if n ∈ used then (if n - 1 < 0x8000 then (n - 1, true) else skip used f (n - 1)) else (n, false)

/-- `next_free_pid` (metadict.py:547-558).  (Simplification: `next_pid` does not go below 0.) -/
def nextFreePid (d : Dict) : Res Nat × Dict :=
  match skip d.localPids (d.nextPid + 1) d.nextPid with
  | (n, true) => (.error .valueError, { d with nextPid := n })
  | (n, false) => (.ok n, { d with localPids := n :: d.localPids, nextPid := n - 1 })

/-- The new definition is put into the set and into `propertydef_by_pid` (metadict.py:259-266). -/
def Cls.add (c : Cls) (p : PDef) : Cls := { c with props := c.props ++ [p], byPid := put c.byPid p.pid p.auid }

/-- Is the property defined in the class itself? (metadict.py:239-243) -/
def Cls.has (c : Cls) (a : Auid) : Bool := c.props.any fun p => p.auid == a

/-- `ClassDef.register_propertydef` of the object `i` (metadict.py:237-267). -/
def registerProp (d : Dict) (i : Nat) (p : PArgs) : Res Unit × Dict :=
  match d.heap[i]? with
  | none => (.error .keyError, d)
  | some c =>
    if c.has p.auid then (.ok (), d)
    else
      match p.pid with
      | some q => (.ok (), { d with heap := d.heap.set i (c.add ⟨p.auid, p.name, q, p.type, p.optional, p.unique⟩) })
      | none =>
        match nextFreePid d with
        | (.error e, d) => (.error e, d)
        | (.ok q, d) => (.ok (), { d with heap := d.heap.set i (c.add ⟨p.auid, p.name, q, p.type, p.optional, p.unique⟩) })

/-- One property in `register_classdef` (metadict.py:421-430): a pid is taken before it is known whether the property is
there. -/
def registerOne (d : Dict) (i : Nat) (p : PArgs) : Res Unit × Dict :=
  match p.pid with
  | none =>
    match nextFreePid d with
    | (.error e, d) => (.error e, d)
    | (.ok q, d) => registerProp d i { p with pid := some q }
  | some q =>
    if 0x8000 ≤ q then
      if q ∈ d.localPids then (.error .assertion, d)
      else registerProp { d with localPids := q :: d.localPids } i p
    else registerProp d i p

/-- The loop over the properties (metadict.py:419-430). -/
def registerAll (d : Dict) (i : Nat) : List PArgs → Res Unit × Dict
  | [] => (.ok (), d)
  | p :: ps =>
    match registerOne d i p with
    | (.error e, d) => (.error e, d)
    | (.ok _, d) => registerAll d i ps

/-- The object that `register_classdef` is about (metadict.py:412-417): the one with this name, whatever its identifier.
A known identifier under another name is looked up among the names (line 415), which raises. -/
def target (d : Dict) (a : CArgs) : Res (Nat × Dict) :=
  match get d.byName a.name with
  | some i => .ok (i, d)
  | none =>
    match get d.byAuid a.auid with
    | some _ => .error .keyError
    | none => .ok (d.heap.length, { d with heap := d.heap ++ [⟨⟨a.auid, a.name, a.parent.getD a.auid, a.concrete, []⟩, []⟩] })

/-- The names and the identifier (metadict.py:432-437).  `root` is the name `Root`, whose class is not stored. -/
def enter (root : Name) (d : Dict) (n : Name) (i : Nat) : Dict :=
  match d.heap[i]? with
  | none => d
  | some c =>
    { d with byName := put d.byName n i, byAuid := put d.byAuid c.auid i,
             stored := if c.name = root then d.stored else put d.stored c.auid i }

/-- `register_classdef` (metadict.py:398-438). -/
def registerClass (root : Name) (d : Dict) (a : CArgs) : Res Unit × Dict :=
  match target d a with
  | .error e => (.error e, d)
  | .ok (i, d) =>
    match registerAll d i a.props with
    | (.error e, d) => (.error e, d)
    | (.ok _, d) => (.ok (), enter root d a.name i)

/-- One after the other (metadict.py:340-344, 390-391). -/
def registerClasses (root : Name) (d : Dict) : List CArgs → Res Unit × Dict
  | [] => (.ok (), d)
  | a :: as =>
    match registerClass root d a with
    | (.error e, d) => (.error e, d)
    | (.ok _, d) => registerClasses root d as

/-- The other names of classes (metadict.py:346-347, 393-394). -/
def registerAliases (d : Dict) : List (Name × Name) → Res Unit × Dict
  | [] => (.ok (), d)
  | (x, n) :: l =>
    match get d.byName n with
    | none => (.error .keyError, d)
    | some i => registerAliases { d with byName := put d.byName x i } l

/-- The definitions that come with the library (metadict.py:302-307, `model/classdefs.py`, `model/ext/classdefs.py`). -/
structure Library where
  root : Name
  rootAuid : Auid
  classes : List CArgs
  aliases : List (Name × Name)
  ext : List CArgs
  extAliases : List (Name × Name)

/-- Classes and other names. (Used in `init`: metadict.py:321-351.) -/
def register (root : Name) (d : Dict) (cs : List CArgs) (as : List (Name × Name)) : Res Unit × Dict :=
  match registerClasses root d cs with
  | (.error e, d) => (.error e, d)
  | (.ok _, d) => registerAliases d as

/-- The constructor (metadict.py:321-351). -/
def init (L : Library) : Res Unit × Dict := register L.root ⟨[], [], [], [], [], 0xFFFF⟩ L.classes L.aliases

/-- `register_extensions` (metadict.py:386-396). -/
def extend (L : Library) (d : Dict) : Res Unit × Dict := register L.root d L.ext L.extAliases

/-! ## Reading the definitions of a file -/

/-- A class of the file (metadict.py:568-578). -/
def load (d : Dict) (f : FCls) : Dict :=
  { d with heap := d.heap ++ [⟨f, f.props.foldl (fun m p => put m p.pid p.auid) []⟩], byName := put d.byName f.name d.heap.length,
           byAuid := put d.byAuid f.auid d.heap.length, stored := put d.stored f.auid d.heap.length }

/-- The dynamic pids of the file (metadict.py:566-574). -/
def dynPids (F : List FCls) : List Nat := (F.flatMap fun f => f.props.map (·.pid)).filter fun q => decide (0x8000 ≤ q)

/-- New pids for the definitions of a class whose pid is taken (metadict.py:619-622).  `propertydef_by_pid` is not
changed. -/
def renumber (d : Dict) : List PDef → Res (List PDef) × Dict
  | [] => (.ok [], d)
  | p :: ps =>
    if 0x8000 ≤ p.pid ∧ p.pid ∈ d.localPids then
      match nextFreePid d with
      | (.error e, d) => (.error e, d)
      | (.ok q, d) =>
        match renumber d ps with
        | (.error e, d) => (.error e, d)
        | (.ok ps, d) => (.ok ({ p with pid := q } :: ps), d)
    else
      match renumber d ps with
      | (.error e, d) => (.error e, d)
      | (.ok ps, d) => (.ok (p :: ps), d)

/-- The classes that the file does not have (metadict.py:609-624). -/
def complete (root : Auid) (d : Dict) : List (Auid × Nat) → Res Unit × Dict
  | [] => (.ok (), d)
  | (a, i) :: l =>
    if a = root ∨ (get d.stored a).isSome then complete root d l
    else
      match d.heap[i]? with
      | none => (.error .keyError, d)
      | some c =>
        match renumber d c.props with
        | (.error e, d) => (.error e, d)
        | (.ok ps, d) => complete root { d with heap := d.heap.set i { c with props := ps }, stored := put d.stored a i } l

/-- `MetaDictionary.read_properties` (metadict.py:560-624). -/
def readDefs (L : Library) (d : Dict) (F : List FCls) (ro : Bool) : Res Unit × Dict :=
  let d := F.foldl load { d with stored := [], localPids := dynPids F }
  if ro then (.ok (), d) else complete L.rootAuid d d.byAuid

/-- The definitions of a new file (file.py:246-251, 221-222). -/
def newDict (L : Library) : Res Unit × Dict :=
  match init L with
  | (.error e, d) => (.error e, d)
  | (.ok _, d) => extend L d

/-- The definitions when a file is opened (file.py:210-222). -/
def openDict (L : Library) (F : List FCls) (ro : Bool) : Res Unit × Dict :=
  match init L with
  | (.error e, d) => (.error e, d)
  | (.ok _, d) =>
    match readDefs L d F ro with
    | (.error e, d) => (.error e, d)
    | (.ok _, d) => if ro then (.ok (), d) else extend L d

/-- What the file has of the definitions. (Made of `FCls` metadict.py:128-145, `Dict` metadict.py:318-351.) -/
def saved (d : Dict) : List FCls := d.stored.filterMap fun x => d.heap[x.2]?.map (·.toFCls)

/-! ## Properties by name -/

/-- `relatives` (metadict.py:269-273): the class and those it inherits from.  The first argument bounds the number of
rounds; the code does not end when the parents form a circle (C36), here this is `none`. -/
def relatives (d : Dict) : Nat → Auid → Option (List Cls)
  | 0, _ => none
  | f + 1, a =>
    match d.cls a with
    | none => some []
    | some c => if c.parent = a then some [c] else (relatives d f c.parent).map (c :: ·)

/-- The classes of an object with the class `a`. (Made of `Auid` metadict.py:34-53, `Cls` metadict.py:128-145, `Dict` metadict.py:318-351, `relatives` metadict.py:269-273.) -/
def chain (d : Dict) (a : Auid) : Option (List Cls) := relatives d (d.heap.length + 1) a

/-- `all_propertydefs` (metadict.py:275-283). -/
def allProps (cs : List Cls) : List PDef := cs.flatMap (·.props)

/-- `get_propertydef_from_pid` (metadict.py:285-296). -/
def fromPid : List Cls → Nat → Option PDef
  | [], _ => none
  | c :: cs, q =>
    match get c.byPid q with
    | some a => c.props.find? fun p => p.auid == a
    | none => fromPid cs q

/-- `Property.propertydef` (properties.py:102-121). -/
def propertydef (cs : List Cls) (q : Nat) : Option PDef :=
  match fromPid cs q with
  | some p => some p
  | none => (allProps cs).find? fun p => p.pid == q

/-- An object: its class and `property_entries`, of each the bytes. (Used in `find`: core.py:302-323.) -/
structure Obj where
  cls : Auid
  entries : List (Nat × Bytes)
  deriving DecidableEq

/-- `property.name` (properties.py:126-130). -/
def nameOf (cs : List Cls) (q : Nat) : Option Name := (propertydef cs q).map (·.name)

/-- `AAFObject.get` (core.py:302-323): pid and bytes.  First the properties that are there, then the definitions. -/
def find (cs : List Cls) (o : Obj) (key : Name) : Option (Nat × Option Bytes) :=
  match o.entries.find? fun e => nameOf cs e.1 == some key with
  | some (q, b) => some (q, some b)
  | none => ((allProps cs).find? fun p => p.name == key).map fun p => (p.pid, none)

/-- What types do: `typedef.encode` and `typedef.decode`. (Used in `getValue`: core.py:334-338.) -/
structure Codec (V : Type) where
  enc : Auid → V → Res Bytes
  dec : Auid → Bytes → Res V

/-- `dict.pop`. (Used in `setValue`: properties.py:150-175.) -/
def remove {α : Type} (l : List (Nat × α)) (k : Nat) : List (Nat × α) := l.filter fun e => e.1 != k

variable {V : Type}

/-- `obj[key].value` (core.py:334-338, properties.py:132-148); of a property whose definition is not found `typedef` is
`None`. -/
def getValue (C : Codec V) (cs : List Cls) (o : Obj) (key : Name) : Res (Option V) :=
  match find cs o key with
  | none => .error .keyError
  | some (_, none) => .ok none
  | some (q, some b) =>
    match propertydef cs q with
    | none => .error .attributeError
    | some p => (C.dec p.type b).map some

/-- `obj[key].value = v` (properties.py:150-175): the type is that of the definition that is found by the pid. -/
def setValue (C : Codec V) (cs : List Cls) (o : Obj) (key : Name) (v : Option V) : Res Obj :=
  match find cs o key with
  | none => .error .keyError
  | some (q, _) =>
    match v with
    | none => .ok { o with entries := remove o.entries q }
    | some v =>
      match propertydef cs q with
      | none => .error .attributeError
      | some p =>
        match C.enc p.type v with
        | .error e => .error e
        | .ok b => .ok { o with entries := put o.entries q b }

/-- `del obj[key]` (core.py:340-347). -/
def delValue (cs : List Cls) (o : Obj) (key : Name) : Res Obj :=
  match o.entries.find? fun e => nameOf cs e.1 == some key with
  | none => .error .keyError
  | some (q, _) => .ok { o with entries := remove o.entries q }

/-- `key in obj` (core.py:349-353). -/
def hasValue (cs : List Cls) (o : Obj) (key : Name) : Bool := (o.entries.find? fun e => nameOf cs e.1 == some key).isSome

/-- `keys()` (core.py:296-300). -/
def keysOf (cs : List Cls) (o : Obj) : List (Option Name) := o.entries.map fun e => nameOf cs e.1

/-! ## Programs -/

/-- An open file. (Used in `create`: file.py:41-60.) -/
structure File where
  dict : Dict
  objs : List Obj
  ro : Bool
  disk : List FCls

/-- Calls. (Made of `Auid` metadict.py:34-53, `PArgs` metadict.py:237, `CArgs` metadict.py:398, `get` metadict.py:412-417 and others.) -/
inductive Call (V : Type) where
  | addClass (a : CArgs)
  | addProp (cls : Auid) (p : PArgs)
  | create (cls : Name)
  | get (o : Nat) (key : Name)
  | set (o : Nat) (key : Name) (v : Option V)
  | del (o : Nat) (key : Name)
  | has (o : Nat) (key : Name)
  | keys (o : Nat)
  | allkeys (o : Nat)
  | reopen (ro : Bool)

/-- Answers. (Used in `create`: file.py:41-60.) -/
inductive Ans (V : Type) where
  | none
  | obj (i : Nat)
  | value (v : Option V)
  | flag (b : Bool)
  | names (l : List (Option Name))
  deriving DecidableEq

/-- `factory.from_name` (file.py:41-60). -/
def create (f : File) (n : Name) : Res (Ans V) × File :=
  match (get f.dict.byName n).bind fun i => f.dict.heap[i]? with
  | none => (.error .valueError, f)
  | some c =>
    if c.concrete then (.ok (.obj f.objs.length), { f with objs := f.objs ++ [⟨c.auid, []⟩] }) else (.error .valueError, f)

/-- An object and its classes.  (Simplification: with an object whose class is not defined everything raises.) (Made of `Cls` metadict.py:128-145, `Dict.cls` metadict.py:269-273, `chain` metadict.py:34-53, `Obj` core.py:302-323 and others.) -/
def look (f : File) (o : Nat) : Res (Obj × List Cls) :=
  match f.objs[o]? with
  | none => .error .keyError
  | some x =>
    match chain f.dict x.cls with
    | none => .error .noFuel
    | some [] => .error .attributeError
    | some (c :: cs) => .ok (x, c :: cs)

/-- A call that may change the object (properties.py:59-67). -/
def change (f : File) (o : Nat) (r : Res Obj) : Res (Ans V) × File :=
  match r with
  | .error e => (.error e, f)
  | .ok x => (.ok .none, { f with objs := f.objs.set o x })

/-- One call. (Made of `get` metadict.py:412-417, `Cls.has` metadict.py:239-243, `registerProp` metadict.py:237-267, `registerClass` metadict.py:398-438 and others.) -/
def Call.run (L : Library) (C : Codec V) (f : File) : Call V → Res (Ans V) × File
  | .addClass a => ((registerClass L.root f.dict a).1.map fun _ => .none, { f with dict := (registerClass L.root f.dict a).2 })
  | .addProp a p =>
    match Meta.get f.dict.byAuid a with
    | none => (.error .attributeError, f)
    | some i => ((registerProp f.dict i p).1.map fun _ => .none, { f with dict := (registerProp f.dict i p).2 })
  | .create n => Meta.create f n
  | .get o key =>
    match look f o with
    | .error e => (.error e, f)
    | .ok (x, cs) => ((getValue C cs x key).map .value, f)
  | .set o key v =>
    match look f o with
    | .error e => (.error e, f)
    | .ok (x, cs) =>
      if f.ro then (.error (if (find cs x key).isNone then .keyError else .propertyError), f) else change f o (setValue C cs x key v)
  | .del o key =>
    match look f o with
    | .error e => (.error e, f)
    | .ok (x, cs) => (if f.ro then .error .valueError else (change (V := V) f o (delValue cs x key)).1, (change (V := V) f o (delValue cs x key)).2)
  | .has o key =>
    match look f o with
    | .error e => (.error e, f)
    | .ok (x, cs) => (.ok (.flag (hasValue cs x key)), f)
  | .keys o =>
    match look f o with
    | .error e => (.error e, f)
    | .ok (x, cs) => (.ok (.names (keysOf cs x)), f)
  | .allkeys o =>
    match look f o with
    | .error e => (.error e, f)
    | .ok (_, cs) => (.ok (.names ((allProps cs).map fun p => some p.name)), f)
  | .reopen ro =>
    let disk := if f.ro then f.disk else saved f.dict
    ((openDict L disk ro).1.map fun _ => .none, ⟨(openDict L disk ro).2, f.objs, ro, disk⟩)

/-- A program: its calls one after the other, whatever they raise. (Made of `Library` metadict.py:302-307, `Codec` core.py:334-338, `File` file.py:41-60, `Call` metadict.py:34-53 and others.) -/
def runs (L : Library) (C : Codec V) : List (Call V) → File → List (Res (Ans V)) × File
  | [], f => ([], f)
  | c :: cs, f => ((c.run L C f).1 :: (runs L C cs (c.run L C f).2).1, (runs L C cs (c.run L C f).2).2)

/-- A new file. (Made of `Library` metadict.py:302-307, `newDict` file.py:246-251, 221-222, `File` file.py:41-60.) -/
def newFile (L : Library) : File := ⟨(newDict L).2, [], false, []⟩

/-- A file that was there. (Made of `FCls` metadict.py:128-145, `Library` metadict.py:302-307, `openDict` file.py:210-222, `Obj` core.py:302-323 and others.) -/
def openFile (L : Library) (F : List FCls) (objs : List Obj) (ro : Bool) : File := ⟨(openDict L F ro).2, objs, ro, F⟩

end Verif.Meta
