import Verif.Model.Bytes
/-!
# The mobs and essence data of a file (`/repo/src/aaf2/content.py`, `/repo/src/aaf2/mobs.py` 44-73, 457-459, `/repo/src/aaf2/essence.py` 15-43, `/repo/src/aaf2/components.py` 151-160)

`f.content.mobs` and `f.content.essencedata` are sets of objects keyed by mob id.  Programs add and remove mobs and essence data, change their ids and the usage
code of mobs, and ask for mobs by kind, by id, by source clip and by essence.

Simplifications: mob ids are numbers (0 is the empty one); every object that a program made or read is kept by it, so that `objects` of a set has all its members
(the others are in C34); of mobs only the id, the class and the usage code are modelled; the file is writeable.
-/
namespace Verif.Content

/-- The classes that the generators of `ContentStorage` distinguish (content.py:44-69). -/
inductive Kind where
  | composition | master | source | other
  deriving DecidableEq

/-- What is given as an id: a `MobID`, `None`, or something else that is hashable and has no `bytes_le` (like a string). (Used in `Shelf`: properties.py:697, 708-711.) -/
inductive Arg where
  | id (n : Nat)
  | nothing
  | wrong (n : Nat)
  deriving DecidableEq

/-- An object of a set: `attached` says if `dir` is set. (Used in `Shelf`: properties.py:697, 708-711.) -/
structure Obj where
  kind : Kind
  usage : Option Nat
  id : Option Nat
  attached : Bool
  deriving DecidableEq

/-- `StrongRefSetProperty`: `heap` are all objects of this sort that exist, `refs` are `references` and `objects` (properties.py:697, 708-711) in the order of
the dictionary. -/
structure Shelf where
  heap : List Obj
  refs : List (Arg × Nat)
  deriving DecidableEq

/-- `references.get(key)`. (Used in `add`: properties.py:868-919.) -/
def getKey (refs : List (Arg × Nat)) (k : Arg) : Option Nat := (refs.find? fun e => e.1 == k).map (·.2)

/-- `references[key] = …` of a dictionary: an entry that is there keeps its place. (Used in `add`: properties.py:868-919.) -/
def setKey (refs : List (Arg × Nat)) (k : Arg) (h : Nat) : List (Arg × Nat) :=
  if (getKey refs k).isSome then refs.map fun e => if e.1 == k then (k, h) else e else refs ++ [(k, h)]

/-- `references.pop(key)`. (Used in `pop`: properties.py:931-942.) -/
def popKey (refs : List (Arg × Nat)) (k : Arg) : List (Arg × Nat) := refs.filter fun e => e.1 != k

/-- `obj.detach()` and `obj.attach(…)` (core.py:169-208): `dir` is cleared or set. -/
def mark (heap : List Obj) (h : Nat) (b : Bool) : List Obj :=
  match heap[h]? with
  | some o => heap.set h { o with attached := b }
  | none => heap

/-- `p.data = …` of the id. (Used in `swap`: properties.py:852-866.) -/
def putId (heap : List Obj) (h : Nat) (i : Option Nat) : List Obj :=
  match heap[h]? with
  | some o => heap.set h { o with id := i }
  | none => heap

/-- `current.detach()` if there is another one (properties.py:899-900). -/
def detachOther (heap : List Obj) (cur : Option Nat) (h : Nat) : List Obj :=
  match cur with
  | some g => if g = h then heap else mark heap g false
  | none => heap

/-- `append` (properties.py:868-919) of one object. -/
def add (s : Shelf) (h : Nat) : Shelf × Res Unit :=
  match s.heap[h]? with
  | none => (s, .error .indexError)
  | some o =>
    if o.attached then (s, .error .attachError)
    else match o.id with
      | none => (s, .error .propertyError)
      | some i => (⟨mark (detachOther s.heap (getKey s.refs (.id i)) h) h true, setKey s.refs (.id i) h⟩, .ok ())

/-- `pop(key)` (properties.py:931-942). -/
def pop (s : Shelf) (k : Arg) : Shelf × Res Nat :=
  match getKey s.refs k with
  | none => (s, .error .keyError)
  | some g => (⟨mark s.heap g false, popKey s.refs k⟩, .ok g)

/-- `swap_unique_key` (properties.py:852-866): the entry is moved first, then `bytes_le` of the new key is asked for. -/
def swap (s : Shelf) (old : Nat) (new : Arg) : Shelf × Res Unit :=
  match getKey s.refs (.id old) with
  | none => (s, .error .valueError)
  | some g =>
    match new with
    | .id j => (⟨putId s.heap g (some j), setKey (popKey s.refs (.id old)) new g⟩, .ok ())
    | _ => (⟨s.heap, setKey (popKey s.refs (.id old)) new g⟩, .error .attributeError)

/-- The rest of the setter (properties.py:161-166). -/
def store (s : Shelf) (h : Nat) : Arg → Shelf × Res Unit
  | .id j => (⟨putId s.heap h (some j), s.refs⟩, .ok ())
  | .nothing => (⟨putId s.heap h none, s.refs⟩, .ok ())
  | .wrong _ => (s, .error .attributeError)

/-- `obj.mob_id = new` (mobs.py:63-65, essence.py:27-29, properties.py:150-166). -/
def setId (s : Shelf) (h : Nat) (new : Arg) : Shelf × Res Unit :=
  match s.heap[h]? with
  | none => (s, .error .indexError)
  | some o =>
    match o.id with
    | none => store s h new
    | some i =>
      if o.attached then
        match swap s i new with
        | (s, .ok _) => store s h new
        | (s, .error e) => (s, .error e)
      else store s h new

/-- `write_index` (properties.py:788-806): the keys that are written; `bytes_le` of another key raises. -/
def writeIndex : List (Arg × Nat) → Res (List Nat)
  | [] => .ok []
  | (.id i, _) :: l => (writeIndex l).map (i :: ·)
  | _ :: _ => .error .attributeError

/-- The mobs and the essence data of a file. (Used in `ofKind`: content.py:44-69.) -/
structure File where
  mobs : Shelf
  ess : Shelf
  deriving DecidableEq

/-- `for mob in self.mobs: if isinstance(mob, …)` (content.py:44-69). -/
def ofKind (f : File) (k : Kind) : List Nat :=
  (f.mobs.refs.map (·.2)).filter fun h => match f.mobs.heap[h]? with | some o => o.kind == k | none => false

/-- The number that stands for `'Usage_TopLevel'`. (Used in `toplevel`: content.py:36-42.) -/
def topLevel : Nat := 0

/-- `toplevel` (content.py:36-42). -/
def toplevel (f : File) : List Nat :=
  (ofKind f .composition).filter fun h => match f.mobs.heap[h]? with | some o => o.usage == some topLevel | none => false

/-- `SourceReference.mob` (components.py:151-156) of a clip with the given `mob_id`. -/
def clipMob (f : File) (i : Option Nat) : Option Nat :=
  match i with
  | none => none
  | some i => if i = 0 then none else getKey f.mobs.refs (.id i)

/-- What is looked up for an id that may be `None`. (Used in `essenceOf`: mobs.py:457-459.) -/
def ofId (i : Option Nat) : Arg :=
  match i with
  | some i => .id i
  | none => .nothing

/-- `mob.essence` (mobs.py:457-459). -/
def essenceOf (f : File) (h : Nat) : Option Nat :=
  match f.mobs.heap[h]? with
  | some o => getKey f.ess.refs (ofId o.id)
  | none => none

/-- `essencedata.mob` (essence.py:31-36); every `MobID` is true, also the empty one. -/
def mobOf (f : File) (h : Nat) : Option Nat :=
  match f.ess.heap[h]? with
  | some o => match o.id with
    | some i => getKey f.mobs.refs (.id i)
    | none => none
  | none => none

/-- `mob.usage = u` (mobs.py:71-73). -/
def setUsage (s : Shelf) (h : Nat) (u : Option Nat) : Shelf :=
  match s.heap[h]? with
  | some o => { s with heap := s.heap.set h { o with usage := u } }
  | none => s

/-- Which of the two sets. (Used in `Op`: mobs.py:32-42.) -/
inductive Side where
  | mobs | ess
  deriving DecidableEq

/-- Calls. (Used in `step`: mobs.py:32-42.) -/
inductive Op where
  | new (d : Side) (k : Kind) (i : Nat)
  | add (d : Side) (h : Nat)
  | pop (d : Side) (i : Nat)
  | setId (d : Side) (h : Nat) (a : Arg)
  | setUsage (h : Nat) (u : Option Nat)
  | get (d : Side) (i : Nat)
  | list (k : Kind)
  | top
  | essence (h : Nat)
  | mobOf (h : Nat)
  | clipMob (i : Option Nat)
  | save
  deriving DecidableEq

/-- What a call gives. (Used in `step`: mobs.py:32-42.) -/
inductive Out where
  | done
  | obj (h : Option Nat)
  | objs (l : List Nat)
  | keys (l k : List Nat)
  deriving DecidableEq

/-- The set that is meant. (Used in `step`: mobs.py:32-42.) -/
def File.side (f : File) : Side → Shelf
  | .mobs => f.mobs
  | .ess => f.ess

/-- The file with another set. (Used in `step`: mobs.py:32-42.) -/
def File.put (f : File) (d : Side) (s : Shelf) : File :=
  match d with
  | .mobs => { f with mobs := s }
  | .ess => { f with ess := s }

/-- One call.  `new` is `f.create.MasterMob()` etc. with a new mob id (mobs.py:32-42); `save` is `write_index` of both sets. -/
def step (f : File) : Op → File × Res Out
  | .new d k i => (f.put d { f.side d with heap := (f.side d).heap ++ [⟨k, none, some i, false⟩] }, .ok (.obj (some (f.side d).heap.length)))
  | .add d h => (f.put d (add (f.side d) h).1, (add (f.side d) h).2.map fun _ => .done)
  | .pop d i => (f.put d (pop (f.side d) (.id i)).1, (pop (f.side d) (.id i)).2.map fun g => .obj (some g))
  | .setId d h a => (f.put d (setId (f.side d) h a).1, (setId (f.side d) h a).2.map fun _ => .done)
  | .setUsage h u => (f.put .mobs (setUsage f.mobs h u), .ok .done)
  | .get d i => (f, .ok (.obj (getKey (f.side d).refs (.id i))))
  | .list k => (f, .ok (.objs (ofKind f k)))
  | .top => (f, .ok (.objs (toplevel f)))
  | .essence h => (f, .ok (.obj (essenceOf f h)))
  | .mobOf h => (f, .ok (.obj (mobOf f h)))
  | .clipMob i => (f, .ok (.obj (clipMob f i)))
  | .save => (f, match writeIndex f.mobs.refs, writeIndex f.ess.refs with
      | .ok a, .ok b => .ok (.keys a b)
      | .error e, _ => .error e
      | _, .error e => .error e)

/-- Several calls, whose exceptions are caught. (Made of `File` content.py:44-69, `Op` mobs.py:32-42.) -/
def run (f : File) : List Op → File × List (Res Out)
  | [] => (f, [])
  | c :: cs => ((run (step f c).1 cs).1, (step f c).2 :: (run (step f c).1 cs).2)

/-- A set that was read (properties.py:745-786, 811-821): the class, the usage and the id of each object; the key in the index is the id. -/
def Shelf.ofFile (l : List (Kind × Option Nat × Nat)) : Shelf :=
  ⟨l.map fun x => ⟨x.1, x.2.1, some x.2.2, true⟩, l.zipIdx.map fun x => (.id x.1.2.2, x.2)⟩

/-- A file that was opened; a new file has nothing in it. (Made of `Kind` content.py:44-69, `Shelf.ofFile` properties.py:745-786, 811-821.) -/
def opened (ms es : List (Kind × Option Nat × Nat)) : File := ⟨.ofFile ms, .ofFile es⟩

end Verif.Content
