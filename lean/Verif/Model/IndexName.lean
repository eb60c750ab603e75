import Verif.Model.Names
/-!
# Names of index streams

The data of a vector or set of objects in the stream `properties` is the name of its index, and the
members are listed in a stream with that name (`/repo/src/aaf2/properties.py` 403-510, 692-860,
`core.py` 85-110, 135-167).

Simplification: the data is the text and not its bytes (C05).
-/
namespace Verif.IndexName
open Verif.Names

/-- What there is about the index in a `StrongRefVectorProperty` (`isSet = false`) or
`StrongRefSetProperty`; `name` is the name of the property. (Used in `Idx.getName`: properties.py:451-460.) -/
structure Idx where
  isSet : Bool
  name : Text
  pid : Nat
  data : Option Text
  index : Option Text
  count : Nat
  deriving DecidableEq

/-- The property `index_name` of a vector (properties.py:451-460). -/
def Idx.getName (p : Idx) : Text × Idx :=
  match p.index with
  | some n => (n, p)
  | none => (indexName p.name p.pid, { p with data := some (indexName p.name p.pid), index := some (indexName p.name p.pid) })

/-- The part of `extend` about the name (properties.py:628, 859-862), with one value. -/
def Idx.append (p : Idx) : Idx :=
  let p := if p.isSet then
      match p.index with
      | none => { p with index := some (indexName p.name p.pid), data := some (indexName p.name p.pid) }
      | some _ => p
    else p.getName.2
  { p with count := p.count + 1 }

/-- `Property.copy` (properties.py:138-141): no index name and no members yet. -/
def Idx.bare (p : Idx) (pid : Nat) : Idx := { p with pid := pid, index := none, count := 0 }

/-- `copy` into the same file (properties.py:423-443, 713-731). -/
def Idx.copySame (p : Idx) : Idx :=
  let q := p.bare p.pid
  if p.isSet then { q with index := p.index, count := p.count }
  else { q.getName.2 with data := p.data, count := p.count }

/-- `n` times `append`. (Used in `Idx.copyOther`: properties.py:444-447, 732-735.) -/
def Idx.appends (p : Idx) : Nat → Idx
  | 0 => p
  | n + 1 => (p.append).appends n

/-- `copy` into another file where the pid is `pid` (properties.py:444-447, 732-735). -/
def Idx.copyOther (p : Idx) (pid : Nat) : Idx := (p.bare pid).appends p.count

/-- The name of an index stream (properties.py:473, 491, 743, 790). -/
def streamName (n : Text) : Text := n ++ [' ', 'i', 'n', 'd', 'e', 'x']

/-- `write_properties` with `write_index` (core.py:150-167, properties.py:489-503, 788-804): the data that
is written and the name of the index stream. -/
def Idx.write (p : Idx) : Res (Text × Text) :=
  match p.data with
  | none => .error .assertion
  | some d =>
    if p.isSet then
      match p.index with
      | none => .error .typeError
      | some n => .ok (d, streamName n)
    else .ok (d, streamName p.getName.1)

/-- `read_properties` with `decode` and `read_index` (core.py:93-110, properties.py:469-476, 741-747) in a
directory with these streams. -/
def Idx.read (p : Idx) (d : Text) (streams : List Text) : Res Idx :=
  if streamName d ∈ streams then .ok { p with data := some d, index := some d } else .error .propertyError

/-- Write the object into a new directory and read it again. (Made of `Idx` properties.py:451-460, `Idx.write` core.py:150-167, `Idx.read` core.py:93-110.) -/
def Idx.again (p : Idx) : Res Idx := do
  let (d, s) ← p.write
  p.read d [s]

end Verif.IndexName
