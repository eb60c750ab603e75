import Verif.Model.Bytes
/-!
# Class definitions and inheritance (`/repo/src/aaf2/metadict.py` 126-300, 384-428)

Class ids (AUIDs) are numbers.  `classdefs_by_auid` is a function; a class definition is stored under
its own id (metadict.py:432-433, 567).  Loops over `relatives()` are given a bound on the number of steps;
`none` means the bound was reached.
-/
namespace Verif.ClassTree

/-- What matters here of a `ClassDef` (metadict.py:130-146): its id, the id in its parent property
(its own id when created without a parent; `none` if a file's class has no such property), and its
properties as pairs (property id, pid). -/
structure Cls where
  auid : Nat
  parentId : Option Nat
  props : List (Nat × Nat)
  deriving DecidableEq, Repr

/-- `classdefs_by_auid`. (Used in `parent`: metadict.py:216-223.) -/
abbrev Table := Nat → Option Cls

/-- `ClassDef.parent` (metadict.py:216-223); `get(None)` finds nothing. -/
def parent (t : Table) (c : Cls) : Option Cls :=
  if c.parentId = some c.auid then none
  else
    match c.parentId with
    | none => none
    | some p => t p

/-- `relatives` (metadict.py:269-273). -/
def relatives (t : Table) : Nat → Cls → Option (List Cls)
  | 0, _ => none
  | n + 1, c =>
    match parent t c with
    | none => some [c]
    | some p => (relatives t n p).map (c :: ·)

/-- The loop of `isinstance` over `other.relatives()` (metadict.py:198-201). -/
def instLoop (t : Table) (auid : Nat) : Nat → Cls → Option Bool
  | 0, _ => none
  | n + 1, c =>
    if c.auid = auid then some true
    else
      match parent t c with
      | none => some false
      | some p => instLoop t auid n p

/-- `self.isinstance(other)` (metadict.py:193-201). -/
def isInstance (t : Table) (n : Nat) (c other : Cls) : Option Bool :=
  if c.auid = other.auid then some true else instLoop t c.auid n other

/-- The loop of `lookup_propertydef` (metadict.py:231-235); pids are never false. -/
def lookupProp (t : Table) (prop : Nat) : Nat → Cls → Option (Option (Nat × Nat))
  | 0, _ => none
  | n + 1, c =>
    match c.props.lookup prop with
    | some pid => some (some (c.auid, pid))
    | none =>
      match parent t c with
      | none => some none
      | some p => lookupProp t prop n p

/-- `register_classdef` (metadict.py:398-438) without its property definitions, for a name not yet
used: a class with a known id raises `KeyError` (line 401 looks the id up by name). -/
def registerClass (t : Table) (auid : Nat) (parentId : Option Nat) : Res Table :=
  match t auid with
  | some _ => .error .keyError
  | none =>
    .ok fun a => if a = auid then some ⟨auid, some (parentId.getD auid), []⟩ else t a

/-- `unique_key_size` (metadict.py:185-191); `mob` and `essence` are the class definitions of Mob and
EssenceData. -/
def uniqueKeySize (t : Table) (n : Nat) (mob essence c : Cls) : Option Nat := do
  let a ← isInstance t n c mob
  if a then return 32
  let b ← isInstance t n c essence
  if b then return 32
  return 16

end Verif.ClassTree
