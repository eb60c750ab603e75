import Verif.Model.MetaDict
import Verif.Model.Enum
/-!
# Type definitions in the meta dictionary, and bringing them to another file

`lookup_typedef` and `register_external_typedef` (`/repo/src/aaf2/metadict.py`, 440-487, 527-534), the `copy` methods of the
type definitions (`types.py`) and how a definition finds its components.

Simplifications: identifiers and the names of types are numbers.  The tables of an enumeration are lists (C07 has how they
are stored), the entries of a definition are its fields; the files are writable.  A class is its identifier, its parent and
the types of its properties, and is found by its identifier (C54 and C55 have the names of classes and the pids).  The records that the
code knows by their identifiers (`Rational`, `TimeStamp`, ...) have the members of the library.  Definitions that have no data of
their own (streams, opaque and indirect values, generic characters) are one constructor.
-/
namespace Verif.TDict
open Verif.Meta (Auid Name get put)
open Verif.Types (Ty Fields)
open Verif.Utf16 (Str)

/-- Definitions without data of their own (types.py:557-573, 855-917). -/
inductive Plain where
  | stream
  | opaque
  | indirect
  | genericChar
  deriving DecidableEq

/-- What a definition says; components are identifiers (`types.py`, 80-952). -/
inductive Kind where
  | int (size : Nat) (signed : Bool)
  | enum (elem : Auid) (elements : List (Int × Str))
  | ext (elements : List (Bytes × Str))
  | fixed (elem : Auid) (count : Nat)
  | var (elem : Auid)
  | set (elem : Auid)
  | str (elem : Auid)
  | record (fields : List (Str × Auid))
  | rename (elem : Auid)
  | char
  | strong (cls : Auid)
  | weak (cls : Auid)
  | plain (p : Plain)
  deriving DecidableEq

/-- `TypeDef` (types.py:31-74). -/
structure TDef where
  auid : Auid
  name : Name
  kind : Kind
  deriving DecidableEq

/-- A class: parent (itself without one) and properties with their types. (Used in `Dict`: metadict.py:317-320.) -/
structure CDef where
  auid : Auid
  parent : Auid
  props : List (Auid × Auid)
  deriving DecidableEq

/-- `typedefs_by_auid`, `typedefs_by_name` and `classdefs_by_auid` (metadict.py:317-320); definitions are objects of a heap. -/
structure Dict where
  heap : List TDef
  byAuid : List (Nat × Nat)
  byName : List (Nat × Nat)
  classes : List CDef
  deriving DecidableEq

/-- `lookup_typedef` with an identifier (metadict.py:526-532). -/
def Dict.type (d : Dict) (a : Auid) : Option TDef := (get d.byAuid a).bind fun i => d.heap[i]?

/-- `lookup_typedef` with a name (metadict.py:526-533). -/
def Dict.named (d : Dict) (n : Name) : Option TDef := (get d.byName n).bind fun i => d.heap[i]?

/-- A definition is entered (metadict.py:473-475). -/
def Dict.add (d : Dict) (t : TDef) : Dict :=
  { d with heap := d.heap ++ [t], byAuid := put d.byAuid t.auid d.heap.length, byName := put d.byName t.name d.heap.length }

/-- `lookup_classdef` with an identifier (metadict.py:535-541). -/
def Dict.cls (d : Dict) (a : Auid) : Option CDef := d.classes.find? fun c => c.auid == a

/-! ## What a type means -/

/-- `AUID("01040100-...")` (types.py:285, 294) and the other identifiers that the code knows (types.py:427, 567-572). -/
def boolAuid : Auid := 0x0104010000000000060e2b3401040101
/-- types.py:427. -/
def charAuid : Auid := 0x0110010000000000060e2b3401040101
/-- types.py:567. -/
def mobidAuid : Auid := 0x0103020000000000060e2b3401040101
/-- types.py:568. -/
def auidAuid : Auid := 0x0103010000000000060e2b3401040101
/-- types.py:569. -/
def timeAuid : Auid := 0x0301060000000000060e2b3401040101
/-- types.py:570. -/
def dateAuid : Auid := 0x0301050000000000060e2b3401040101
/-- types.py:571. -/
def stampAuid : Auid := 0x0301070000000000060e2b3401040101
/-- types.py:572. -/
def rationalAuid : Auid := 0x0301010000000000060e2b3401040101

/-- "Character" (types.py:451). -/
def characterName : Name := 0x436861726163746572

/-- The members of a record, with what a member means. (Used in `denote`: types.py:258-262, 333-336, 413-416, 484-487, 758-761.) -/
def fieldsOf (f : Auid → Option Ty) : List (Str × Auid) → Option Fields
  | [] => some .nil
  | (n, a) :: l =>
    match f a, fieldsOf f l with
    | some t, some fs => some (.cons n t fs)
    | _, _ => none

/-- Records that the code knows by their identifiers (types.py:631-684). -/
def special (a : Auid) : Option Ty :=
  if a = mobidAuid then some .mobid else if a = auidAuid then some .auid else if a = timeAuid then some .time
  else if a = dateAuid then some .date else if a = stampAuid then some .stamp else if a = rationalAuid then some .rational else none

/-- How values of a definition are decoded and encoded, as a type of `Model/Types`: elements are looked up by identifier
(types.py:258-262, 333-336, 413-416, 484-487, 758-761), the members of a record by the name of their type
(types.py:608-615, 644, 735), which can be another definition. -/
def denote (d : Dict) : Nat → TDef → Option Ty
  | 0, _ => none
  | n + 1, t =>
    match t.kind with
    | .int s g => some (.int s g)
    | .enum e els =>
      if t.auid = boolAuid then some .bool
      else match (d.type e).map TDef.kind with
        | some (.int s g) => some (.enum s g els)
        | _ => none
    | .ext els => some (.extEnum els)
    | .fixed e c => ((d.type e).bind (denote d n)).map (Ty.fixed · c)
    | .var e =>
      match d.type e with
      | none => none
      | some t => if e = charAuid then some (.strArray (t.name == characterName)) else if t.name = characterName then none else (denote d n t).map .var
    | .set e => ((d.type e).bind (denote d n)).map .set
    | .str _ => some .str
    | .record fs =>
      match special t.auid with
      | some t => some t
      | none => (fieldsOf (fun a => (d.type a).bind fun t => (d.named t.name).bind (denote d n)) fs).map .record
    | .rename e => ((d.type e).bind (denote d n)).map .rename
    | .char => none
    | .strong _ => none
    | .weak _ => none
    | .plain _ => none

/-- The type with an identifier. (Made of `Dict` metadict.py:317-320, `Dict.type` metadict.py:526-532, `denote` types.py:258-262, 333-336, 413-416, 484-487, 758-761.) -/
def typeOf (d : Dict) (n : Nat) (a : Auid) : Option Ty := (d.type a).bind (denote d n)

/-! ## Bringing a type -/

/-- The name of the class of a definition (classdefs.py:551-706), which is what `self.name` is in the `copy` methods (core.py:47-52, types.py:45,
92, ...). -/
def Kind.className : Kind → Name
  | .int _ _ => 0x54797065446566696e6974696f6e496e7465676572
  | .enum _ _ => 0x54797065446566696e6974696f6e456e756d65726174696f6e
  | .ext _ => 0x54797065446566696e6974696f6e457874656e6469626c65456e756d65726174696f6e
  | .fixed _ _ => 0x54797065446566696e6974696f6e46697865644172726179
  | .var _ => 0x54797065446566696e6974696f6e5661726961626c654172726179
  | .set _ => 0x54797065446566696e6974696f6e536574
  | .str _ => 0x54797065446566696e6974696f6e537472696e67
  | .record _ => 0x54797065446566696e6974696f6e5265636f7264
  | .rename _ => 0x54797065446566696e6974696f6e52656e616d65
  | .char => 0x54797065446566696e6974696f6e436861726163746572
  | .strong _ => 0x54797065446566696e6974696f6e5374726f6e674f626a6563745265666572656e6365
  | .weak _ => 0x54797065446566696e6974696f6e5765616b4f626a6563745265666572656e6365
  | .plain .stream => 0x54797065446566696e6974696f6e53747265616d
  | .plain .opaque => 0x54797065446566696e6974696f6e4f7061717565
  | .plain .indirect => 0x54797065446566696e6974696f6e496e646972656374
  | .plain .genericChar => 0x54797065446566696e6974696f6e47656e65726963436861726163746572

/-- The components that are brought first (metadict.py:455-470). -/
def Kind.parts : Kind → List Auid
  | .enum e _ | .fixed e _ | .var e | .set e | .str e | .rename e => [e]
  | .record fs => fs.map (·.2)
  | _ => []

/-- `copy` (types.py:44, 91, 149, 177, 242, 329, 400, 480, 542, 594, 754, 804): the identifiers of components are those of
definitions that are there.  The copy of a set is given the definition of the elements and not its identifier, which raises; the path of a weak
reference is made of names of the class of the definitions, which are not identifiers. -/
def Kind.copied (S : Dict) (k : Kind) : Res Kind :=
  match k with
  | .set _ => .error .attributeError
  | .weak _ => .error .valueError
  | k => if k.parts.all fun e => (S.type e).isSome then .ok k else .error .attributeError

/-- `TypeDefEnum.register_element` (types.py:263-280). -/
def addCode (els : List (Int × Str)) (name : Str) (code : Int) : List (Int × Str) :=
  if els.any (fun p => p.1 = code ∨ p.2 = name) then els else Enum.sortCodes els ++ [(code, name)]

/-- `TypeDefExtEnum.register_element` (types.py:807-824). -/
def addKey (els : List (Bytes × Str)) (name : Str) (key : Bytes) : List (Bytes × Str) :=
  if els.any (fun p => p.1 = key ∨ p.2 = name) then els else els ++ [(key, name)]

/-- The loop over the elements of the other file (metadict.py:482-484). -/
def mergeCodes (els src : List (Int × Str)) : List (Int × Str) :=
  src.foldl (fun acc p => if els.any (fun q => q.1 = p.1) then acc else addCode acc p.2 p.1) els

/-- The loop over the elements of the other file, for an extendible enumeration (metadict.py:482-484). -/
def mergeKeys (els src : List (Bytes × Str)) : List (Bytes × Str) :=
  src.foldl (fun acc p => if els.any (fun q => q.1 = p.1) then acc else addKey acc p.2 p.1) els

/-- An enumeration gets the elements of the other file (metadict.py:478-484). -/
def merge (d : Dict) (a : Auid) (k : Kind) : Res Unit × Dict :=
  match k, get d.byAuid a with
  | .enum _ src, some i =>
    match d.heap[i]? with
    | some t =>
      match t.kind with
      | .enum e els => (.ok (), { d with heap := d.heap.set i { t with kind := .enum e (mergeCodes els src) } })
      | _ => (.error .attributeError, d)
    | none => (.error .attributeError, d)
  | .ext src, some i =>
    match d.heap[i]? with
    | some t =>
      match t.kind with
      | .ext els => (.ok (), { d with heap := d.heap.set i { t with kind := .ext (mergeKeys els src) } })
      | _ => (.error .attributeError, d)
    | none => (.error .attributeError, d)
  | _, _ => (.ok (), d)

/-- A loop that brings types. (Used in `bringParts`: metadict.py:447-470.) -/
def each (f : Dict → Auid → Res Bool × Dict) (d : Dict) : List Auid → Res Unit × Dict
  | [] => (.ok (), d)
  | a :: l =>
    match f d a with
    | (.error e, d) => (.error e, d)
    | (.ok _, d) => each f d l

/-- `relatives` (metadict.py:269-273). -/
def relatives (S : Dict) : Nat → Auid → List CDef
  | 0, _ => []
  | n + 1, a =>
    match S.cls a with
    | none => []
    | some c => if c.parent = a then [c] else c :: relatives S n c.parent

/-- A property of a class comes to a class of this file (metadict.py:499-506). -/
def Dict.addProp (d : Dict) (a : Auid) (p : Auid × Auid) : Dict :=
  { d with classes := d.classes.map fun c => if c.auid = a ∧ p.1 ∉ c.props.map (·.1) then { c with props := c.props ++ [p] } else c }

/-- The properties of a class and their types (metadict.py:499-506); a type that is not there has no identifier. -/
def bringProps (f : Dict → Auid → Res Bool × Dict) (d : Dict) (a : Auid) : List (Auid × Auid) → Res Unit × Dict
  | [] => (.ok (), d)
  | p :: l =>
    match f d p.2 with
    | (.error e, d) => (.error e, d)
    | (.ok false, d) => (.error .attributeError, d)
    | (.ok true, d) => bringProps f (d.addProp a p) a l

/-- The classes one after the other (metadict.py:492-506). -/
def bringClasses (f : Dict → Auid → Res Bool × Dict) (d : Dict) : List CDef → Res Unit × Dict
  | [] => (.ok (), d)
  | c :: l =>
    match bringProps f (if (d.cls c.auid).isSome then d else { d with classes := d.classes ++ [⟨c.auid, c.parent, []⟩] }) c.auid c.props with
    | (.error e, d) => (.error e, d)
    | (.ok _, d) => bringClasses f d l

/-- `register_external_classdef` (metadict.py:489-508). -/
def bringClass (f : Dict → Auid → Res Bool × Dict) (S d : Dict) (a : Auid) : Res Unit × Dict :=
  match S.cls a with
  | none => (.error .attributeError, d)
  | some _ => bringClasses f d ((relatives S (S.classes.length + 1) a).reverse.drop 1)

/-- What is brought before a definition (metadict.py:447-470). -/
def bringParts (f : Dict → Auid → Res Bool × Dict) (S d : Dict) : Kind → Res Unit × Dict
  | .strong c => bringClass f S d c
  | .weak c => bringClass f S d c
  | k => each f d k.parts

/-- A definition that this file does not have (metadict.py:447-475). -/
def bringNew (f : Dict → Auid → Res Bool × Dict) (S d : Dict) (t : TDef) : Res Unit × Dict :=
  match bringParts f S d t.kind with
  | (.error e, d) => (.error e, d)
  | (.ok _, d) =>
    match t.kind.copied S with
    | .error e => (.error e, d)
    | .ok k => (.ok (), d.add ⟨t.auid, k.className, k⟩)

/-- `register_external_typedef` (metadict.py:440-487) for the definition that the file `S` has under an identifier; the answer tells if there
is one.  `fuel` is the depth of the calls. -/
def bring (S : Dict) : Nat → Dict → Auid → Res Bool × Dict
  | 0, d, _ => (.error .noFuel, d)
  | n + 1, d, a =>
    match S.type a with
    | none => (.ok false, d)
    | some t =>
      match (if (d.type a).isSome then (.ok (), d) else bringNew (bring S n) S d t : Res Unit × Dict) with
      | (.error e, d) => (.error e, d)
      | (.ok _, d) =>
        match merge d a t.kind with
        | (.error e, d) => (.error e, d)
        | (.ok _, d) => (.ok true, d)

/-- `register_external_classdef` for a class of the file `S` (metadict.py:489-508). -/
def bringTop (S : Dict) (n : Nat) (d : Dict) (c : Auid) : Res Unit × Dict := bringClass (bring S n) S d c

end Verif.TDict
