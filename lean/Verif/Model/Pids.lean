import Verif.Model.Bytes
/-!
# Dynamically allocated property ids (`/repo/src/aaf2/metadict.py` 235-265, 403-415, 547-625)

Class ids and property ids (AUIDs) are numbers; a property definition has a pid, an integer.
-/
namespace Verif.Pids

/-- A property definition: its class, its id and its pid (metadict.py:35-53). -/
structure Def where
  cls : Nat
  prop : Nat
  pid : Int
  deriving DecidableEq, Repr

/-- The part of `MetaDictionary` used here (metadict.py:333-334): `local_pids`, `next_pid`, and the
property definitions of all classes in `classdefs_by_auid`.  The two-level dictionary of properties by
class is flattened to a list. -/
structure MD where
  localPids : List Int
  nextPid : Int
  defs : List Def
  deriving DecidableEq, Repr

/-- The loop of `next_free_pid` (metadict.py:549-552): the new `next_pid`, and whether it raised. -/
def skip (used : List Int) (next : Int) : Int × Bool :=
  if next ∈ used then
    if next - 1 < 0x8000 then (next - 1, true) else skip used (next - 1)
  else (next, false)
termination_by next.toNat
decreasing_by omega

/-- `next_free_pid` (metadict.py:547-558).  The state is kept when it raises. -/
def alloc (m : MD) : Res Int × MD :=
  match skip m.localPids m.nextPid with
  | (n, true) => (.error .valueError, { m with nextPid := n })
  | (n, false) => (.ok n, { m with localPids := n :: m.localPids, nextPid := n - 1 })

/-- Is the property already defined for the class? (metadict.py:240-243) -/
def has (m : MD) (cls prop : Nat) : Bool := m.defs.any fun d => d.cls == cls && d.prop == prop

/-- `ClassDef.register_propertydef` (metadict.py:237-267): `none` asks for a dynamic pid. -/
def registerProp (m : MD) (cls prop : Nat) (pid : Option Int) : Res Unit × MD :=
  if has m cls prop then (.ok (), m)
  else
    match pid with
    | some p => (.ok (), { m with defs := m.defs ++ [⟨cls, prop, p⟩] })
    | none =>
      match alloc m with
      | (.error e, m) => (.error e, m)
      | (.ok p, m) => (.ok (), { m with defs := m.defs ++ [⟨cls, prop, p⟩] })

/-- One property in `register_classdef` (metadict.py:419-430). -/
def registerClassProp (m : MD) (cls prop : Nat) (pid : Option Int) : Res Unit × MD :=
  match pid with
  | none =>
    match alloc m with
    | (.error e, m) => (.error e, m)
    | (.ok p, m) => registerProp m cls prop (some p)
  | some p =>
    if p ≥ 0x8000 then
      if p ∈ m.localPids then (.error .assertion, m)
      else registerProp { m with localPids := p :: m.localPids } cls prop (some p)
    else registerProp m cls prop (some p)

/-- Give one definition a new pid if its pid is dynamic and taken (metadict.py:593-599, 619-622). -/
def renumber (m : MD) (d : Def) : Res Def × MD :=
  if d.pid ≥ 0x8000 ∧ d.pid ∈ m.localPids then
    match alloc m with
    | (.error e, m) => (.error e, m)
    | (.ok p, m) => (.ok { d with pid := p }, m)
  else (.ok d, m)

/-- Renumber the definitions of the classes missing in the file, in order (metadict.py:609-624).
`ds` are the definitions still to be visited. -/
def renumberAll (m : MD) : List Def → Res (List Def) × MD
  | [] => (.ok [], m)
  | d :: ds =>
    match renumber m d with
    | (.error e, m) => (.error e, m)
    | (.ok d, m) =>
      match renumberAll m ds with
      | (.error e, m) => (.error e, m)
      | (.ok ds, m) => (.ok (d :: ds), m)

/-- `MetaDictionary.read_properties` (metadict.py:560-624) for a writable file with the property
definitions `file`: a class in the file replaces the built-in one; `local_pids` is replaced by the
dynamic pids in the file, `next_pid` is kept; built-in classes missing in the file are renumbered where
needed.  Simplification: the loop over type definitions (582-609) is left out; it renumbers the one
dynamic property of the class of generic characters in the same way. -/
def readProperties (m : MD) (fileClasses : List Nat) (file : List Def) : Res MD :=
  let m1 : MD := { m with localPids := (file.map (·.pid)).filter (fun p => decide (p ≥ 0x8000)) }
  match renumberAll m1 (m.defs.filter fun d => decide (d.cls ∉ fileClasses)) with
  | (.error e, _) => .error e
  | (.ok ds, m2) => .ok { m2 with defs := file ++ ds }

/-- Requests made by a program on an open file. (Used in `run`: metadict.py:333-334.) -/
inductive Op
  | prop (cls prop : Nat) (pid : Option Int)
  | cls (cls prop : Nat) (pid : Option Int)
  deriving DecidableEq, Repr

/-- Run one request, ignoring exceptions. (Made of `MD` metadict.py:333-334, `registerProp` metadict.py:237-267, `registerClassProp` metadict.py:419-430.) -/
def run (m : MD) : Op → MD
  | .prop c p pid => (registerProp m c p pid).2
  | .cls c p pid => (registerClassProp m c p pid).2

/-- The state before any definition (metadict.py:333-334). -/
def init : MD := ⟨[], 0xFFFF, []⟩

end Verif.Pids
