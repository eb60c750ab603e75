import Verif.Model.MetaDict
/-!
# Properties by name

Classes have named properties and inherit those of their parents; an object has a value for some of the names.  There
are no property ids, no dictionaries and no definitions as objects here.  Calls, answers and codecs are those of
`Model/MetaDict`.
-/
namespace Verif.Spec.Meta
open Verif.Meta (Auid Name Codec Call Ans PArgs CArgs)

/-- A property of a class. -/
structure Info where
  auid : Auid
  name : Name
  type : Auid
  optional : Bool
  unique : Bool
  deriving DecidableEq

/-- A class; without a parent it is its own parent. -/
structure Class where
  name : Name
  parent : Auid
  concrete : Bool
  props : List Info
  deriving DecidableEq

abbrev Table := Auid → Option Class

/-- All properties of a class: its own and then those it inherits. -/
inductive Lists (T : Table) : Auid → List Info → Prop
  | last {a : Auid} {c : Class} : T a = some c → c.parent = a → Lists T a c.props
  | up {a : Auid} {c : Class} {ps : List Info} : T a = some c → c.parent ≠ a → Lists T c.parent ps → Lists T a (c.props ++ ps)

/-- Every class has its ancestors, no property name twice, and a name of its own. -/
structure Good (T : Table) : Prop where
  names : ∀ a c, T a = some c → ∃ ps, Lists T a ps ∧ (ps.map (·.name)).Nodup
  sets : ∀ a c, T a = some c → (c.props.map (·.auid)).Nodup
  own : ∀ a b c c', T a = some c → T b = some c' → c.name = c'.name → a = b

/-- A property that is there stays as it is. -/
def Class.add (c : Class) (p : Info) : Class := if p.auid ∈ c.props.map (·.auid) then c else { c with props := c.props ++ [p] }

def Class.addAll (c : Class) (ps : List Info) : Class := ps.foldl Class.add c

def Table.set (T : Table) (a : Auid) (c : Class) : Table := fun x => if x = a then some c else T x

def infoOf (p : PArgs) : Info := ⟨p.auid, p.name, p.type, p.optional, p.unique⟩

/-- Classes that are declared one after the other; a class that is declared again gets more properties. -/
def declare (es : List CArgs) : Table :=
  es.foldl (fun T e => T.set e.auid (((T e.auid).getD ⟨e.name, e.parent.getD e.auid, e.concrete, []⟩).addAll (e.props.map infoOf))) fun _ => none

/-- An object: its class and its values. -/
structure Object (V : Type) where
  cls : Auid
  vals : List (Name × V)

/-- A file. -/
structure State (V : Type) where
  table : Table
  objs : List (Object V)
  ro : Bool

/-- What the library brings: the class of the root object and further names of classes. -/
structure Fixed where
  root : Auid
  others : List Name

variable {V : Type}

def value (vs : List (Name × V)) (key : Name) : Option V := (vs.find? fun e => e.1 == key).map (·.2)

/-- A value that is there is replaced in its place. -/
def store (vs : List (Name × V)) (key : Name) (v : V) : List (Name × V) :=
  if key ∈ vs.map (·.1) then vs.map fun e => if e.1 = key then (key, v) else e else vs ++ [(key, v)]

def erase (vs : List (Name × V)) (key : Name) : List (Name × V) := vs.filter fun e => e.1 != key

/-- A name that no class has. -/
def Free (X : Fixed) (T : Table) (n : Name) : Prop := n ∉ X.others ∧ ∀ a c, T a = some c → c.name ≠ n

/-- With an object and all its properties. -/
def With (S : State V) (o : Nat) (P : Object V → List Info → Prop) : Prop :=
  ∃ x ps, S.objs[o]? = some x ∧ Lists S.table x.cls ps ∧ P x ps

/-- What a call may do. -/
def Step (X : Fixed) (C : Codec V) (S : State V) (c : Call V) (r : Res (Ans V)) (S' : State V) : Prop :=
  match c with
  | .addClass a => S.ro = false ∧ (∀ p ∈ a.props, p.pid = none) ∧
    ((∃ c, S.table a.auid = some c ∧ c.name = a.name ∧ a.auid ≠ X.root ∧ r = .ok .none ∧ Good S'.table ∧
        S' = { S with table := S.table.set a.auid (c.addAll (a.props.map infoOf)) }) ∨
     (S.table a.auid = none ∧ Free X S.table a.name ∧ (∀ b, a.parent = some b → S.table b ≠ none) ∧ r = .ok .none ∧ Good S'.table ∧
        S' = { S with table := S.table.set a.auid (Class.addAll ⟨a.name, a.parent.getD a.auid, a.concrete, []⟩ (a.props.map infoOf)) }) ∨
     (S.table a.auid ≠ none ∧ Free X S.table a.name ∧ r = .error .keyError ∧ S' = S))
  | .addProp a p => S.ro = false ∧ p.pid = none ∧ a ≠ X.root ∧
    ∃ c, S.table a = some c ∧ r = .ok .none ∧ Good S'.table ∧ S' = { S with table := S.table.set a (c.add (infoOf p)) }
  | .create n => S.ro = false ∧
    ((∃ a c, S.table a = some c ∧ c.name = n ∧
      if c.concrete then r = .ok (.obj S.objs.length) ∧ S' = { S with objs := S.objs ++ [⟨a, []⟩] } else r = .error .valueError ∧ S' = S) ∨
     (Free X S.table n ∧ r = .error .valueError ∧ S' = S))
  | .get o key => S' = S ∧ With S o fun x ps => r = if key ∈ ps.map (·.name) then .ok (.value (value x.vals key)) else .error .keyError
  | .set o key v => With S o fun x ps =>
    if key ∉ ps.map (·.name) then r = .error .keyError ∧ S' = S
    else if S.ro then r = .error .propertyError ∧ S' = S
    else match v with
      | none => r = .ok .none ∧ S' = { S with objs := S.objs.set o { x with vals := erase x.vals key } }
      | some v => ∃ p ∈ ps, p.name = key ∧ (p.unique = true → value x.vals key = none) ∧
        match C.enc p.type v with
        | .error e => r = .error e ∧ S' = S
        | .ok _ => r = .ok .none ∧ S' = { S with objs := S.objs.set o { x with vals := store x.vals key v } }
  | .del o key => S.ro = false ∧ With S o fun x _ =>
    if key ∈ x.vals.map (·.1) then r = .ok .none ∧ S' = { S with objs := S.objs.set o { x with vals := erase x.vals key } }
    else r = .error .keyError ∧ S' = S
  | .has o key => S' = S ∧ With S o fun x _ => r = .ok (.flag (decide (key ∈ x.vals.map (·.1))))
  | .keys o => S' = S ∧ With S o fun x _ => r = .ok (.names (x.vals.map fun e => some e.1))
  | .allkeys o => S' = S ∧ With S o fun _ ps => r = .ok (.names (ps.map fun p => some p.name))
  | .reopen ro => r = .ok .none ∧ S' = { S with ro := ro }

/-- Something is promised of a call. -/
def Says (X : Fixed) (C : Codec V) (S : State V) (c : Call V) : Prop := ∃ r S', Step X C S c r S'

/-- A history of calls with their answers. -/
inductive Runs (X : Fixed) (C : Codec V) : State V → List (Call V) → List (Res (Ans V)) → State V → Prop
  | nil {S : State V} : Runs X C S [] [] S
  | cons {S S' S'' : State V} {c : Call V} {cs : List (Call V)} {r : Res (Ans V)} {rs : List (Res (Ans V))} :
    Step X C S c r S' → Runs X C S' cs rs S'' → Runs X C S (c :: cs) (r :: rs) S''

/-- What is encoded is decoded. -/
def Sound (C : Codec V) : Prop := ∀ t v b, C.enc t v = .ok b → C.dec t b = .ok v

end Verif.Spec.Meta
