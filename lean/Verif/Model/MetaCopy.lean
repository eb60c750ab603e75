import Verif.Model.MetaDict
/-!
# Copying an object into another file

`AAFObject.copy` (`/repo/src/aaf2/core.py`, 249-280) and `register_external_classdef` (`metadict.py`, 489-508) over the
definitions of `Model/MetaDict`.

Simplifications: as there types are identifiers, so `register_external_typedef` (metadict.py:440-487) is left out, and the
values of an object are bytes that are copied (properties.py:138-141); strong references, weak references and streams
are copied by methods of their own, which are left out (C14, C53).  `classdef_cache` (core.py:251, 258-261) only saves
calls and is left out.
-/
namespace Verif.Meta

/-- The arguments in `register_external_classdef` (metadict.py:500-506): a dynamic pid is given anew. -/
def argsOf (p : PDef) : PArgs := ⟨p.auid, p.name, if 0x8000 ≤ p.pid then none else some p.pid, p.type, p.optional, p.unique⟩

/-- The loop over the properties of a class (metadict.py:499-506). -/
def externalProps (d : Dict) (i : Nat) : List PDef → Res Unit × Dict
  | [] => (.ok (), d)
  | p :: ps =>
    match registerProp d i (argsOf p) with
    | (.error e, d) => (.error e, d)
    | (.ok _, d) => externalProps d i ps

/-- One class of the other file (metadict.py:492-506).  A class that is not known here by its identifier is registered
without properties; `register_classdef` returns what it then has under the name. -/
def externalOne (root : Name) (d : Dict) (c : Cls) : Res Unit × Dict :=
  match get d.byAuid c.auid with
  | some i => externalProps d i c.props
  | none =>
    match registerClass root d ⟨c.name, c.auid, some c.parent, c.concrete, []⟩ with
    | (.error e, d) => (.error e, d)
    | (.ok _, d) =>
      match get d.byName c.name with
      | none => (.error .keyError, d)
      | some i => externalProps d i c.props

/-- The loop over the classes (metadict.py:492-506). -/
def externals (root : Name) (d : Dict) : List Cls → Res Unit × Dict
  | [] => (.ok (), d)
  | c :: cs =>
    match externalOne root d c with
    | (.error e, d) => (.error e, d)
    | (.ok _, d) => externals root d cs

/-- `register_external_classdef` (metadict.py:489-508) with the relatives of the class: from the parents down, without
the first of them. -/
def registerExternal (root : Name) (d : Dict) (cs : List Cls) : Res Unit × Dict := externals root d (cs.reverse.drop 1)

/-- `lookup_propertydef` (metadict.py:231-235). -/
def lookupProp (cs : List Cls) (a : Auid) : Option PDef := (allProps cs).find? fun p => p.auid == a

/-- The pid of a property in the other file (core.py:271-276); `cs` and `ds` are the classes of the object and of its
copy. -/
def newPid (cs ds : List Cls) (q : Nat) : Res Nat :=
  if 0x8000 ≤ q then
    match propertydef cs q with
    | none => .error .attributeError
    | some p =>
      match ds with
      | [] => .error .attributeError
      | _ =>
        match lookupProp ds p.auid with
        | none => .error .assertion
        | some p' => .ok p'.pid
  else .ok q

/-- The loop over the properties of the object (core.py:271-278). -/
def copyEntries (cs ds : List Cls) : List (Nat × Bytes) → List (Nat × Bytes) → Res (List (Nat × Bytes))
  | [], acc => .ok acc
  | (q, b) :: l, acc =>
    match newPid cs ds q with
    | .error e => .error e
    | .ok q' => copyEntries cs ds l (put acc q' b)

variable {V : Type}

/-- `obj.copy(root=g)` for an object of the file `f` (core.py:249-280). -/
def copyTo (L : Library) (f g : File) (o : Nat) : Res (Ans V) × File :=
  match look f o with
  | .error e => (.error e, g)
  | .ok (x, cs) =>
    match registerExternal L.root g.dict cs with
    | (.error e, d) => (.error e, { g with dict := d })
    | (.ok _, d) =>
      match chain d x.cls with
      | none => (.error .noFuel, { g with dict := d })
      | some ds =>
        match copyEntries cs ds x.entries [] with
        | .error e => (.error e, { g with dict := d })
        | .ok es => (.ok (.obj g.objs.length), { g with dict := d, objs := g.objs ++ [⟨x.cls, es⟩] })

/-- `obj.copy()` in the same file (core.py:249-280). -/
def copySame (f : File) (o : Nat) : Res (Ans V) × File :=
  match look f o with
  | .error e => (.error e, f)
  | .ok (x, _) => (.ok (.obj f.objs.length), { f with objs := f.objs ++ [⟨x.cls, x.entries.foldl (fun acc e => put acc e.1 e.2) []⟩] })

/-- Calls on some open files. (Used in `WCall.run`: core.py:249-280.) -/
inductive WCall (V : Type) where
  | on (i : Nat) (c : Call V)
  | copy (i o j : Nat)

/-- One call; files are named by their place. (Made of `copyTo` core.py:249-280.) -/
def WCall.run (L : Library) (C : Codec V) (W : List File) : WCall V → Res (Ans V) × List File
  | .on i c =>
    match W[i]? with
    | none => (.error .keyError, W)
    | some f => ((c.run L C f).1, W.set i (c.run L C f).2)
  | .copy i o j =>
    match W[i]?, W[j]? with
    | some f, some g =>
      if i = j then ((copySame (V := V) f o).1, W.set j (copySame (V := V) f o).2)
      else ((copyTo (V := V) L f g o).1, W.set j (copyTo (V := V) L f g o).2)
    | _, _ => (.error .keyError, W)

/-- A program: its calls one after the other, whatever they raise. (Made of `WCall.run` core.py:249-280.) -/
def wruns (L : Library) (C : Codec V) : List (WCall V) → List File → List (Res (Ans V)) × List File
  | [], W => ([], W)
  | c :: cs, W => ((c.run L C W).1 :: (wruns L C cs (c.run L C W).2).1, (wruns L C cs (c.run L C W).2).2)

end Verif.Meta
