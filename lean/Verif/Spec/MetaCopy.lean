import Verif.Spec.MetaDict
import Verif.Model.MetaCopy
/-!
# Copying an object into another file

Files with tables of classes and objects with values by name, as in `Spec/MetaDict`; nothing is said about numbers of
properties, only how many a call may use up.
-/
namespace Verif.Spec.Meta
open Verif.Meta (Auid Name Codec Call Ans WCall)

variable {V : Type}

/-- A class and those it inherits from. -/
inductive Line (T : Table) : Auid → List (Auid × Class) → Prop
  | last {a : Auid} {c : Class} : T a = some c → c.parent = a → Line T a [(a, c)]
  | up {a : Auid} {c : Class} {l : List (Auid × Class)} : T a = some c → c.parent ≠ a → Line T c.parent l → Line T a ((a, c) :: l)

/-- A class of another file comes to the table. -/
def Brings (X : Fixed) (T : Table) (e : Auid × Class) (T' : Table) : Prop :=
  e.1 ≠ X.root ∧
  ((∃ c, T e.1 = some c ∧ T' = T.set e.1 (c.addAll e.2.props)) ∨
   (T e.1 = none ∧ Free X T e.2.name ∧ T e.2.parent ≠ none ∧ T' = T.set e.1 (Class.addAll ⟨e.2.name, e.2.parent, e.2.concrete, []⟩ e.2.props)))

inductive BringsAll (X : Fixed) : Table → List (Auid × Class) → Table → Prop
  | nil {T : Table} : BringsAll X T [] T
  | cons {T T1 T2 : Table} {e : Auid × Class} {es : List (Auid × Class)} : Brings X T e T1 → BringsAll X T1 es T2 → BringsAll X T (e :: es) T2

/-- The classes `l` of an object of another file (from its own up to the one without a parent) are known in a table
that becomes `T'`: with all properties, apart from those of the class without a parent; `ps` are the properties
that an object has now. -/
structure Known (X : Fixed) (T : Table) (a : Auid) (l : List (Auid × Class)) (T' : Table) (ps : List Info) : Prop where
  brings : BringsAll X T l.dropLast.reverse T'
  good : Good T'
  line : ∀ e ∈ l, ∃ c, T' e.1 = some c ∧ c.parent = e.2.parent
  lists : Lists T' a ps
  once : (ps.map (·.auid)).Nodup

/-- An object of `S` is copied to a file `T`: the values are there under the same names.  A value of a property that is not
known there (it was added to the class without a parent) raises. -/
def Copies (X : Fixed) (S : State V) (o : Nat) (T : State V) (r : Res (Ans V)) (T' : State V) (n : Nat) : Prop :=
  T.ro = false ∧ ∃ x l T1 ps, S.objs[o]? = some x ∧ Line S.table x.cls l ∧ Known X T.table x.cls l T1 ps ∧ n = (l.dropLast.flatMap (·.2.props)).length ∧
    (((∀ key ∈ x.vals.map (·.1), ∃ p ∈ l.flatMap (·.2.props), ∃ p' ∈ ps, p.name = key ∧ p'.name = key ∧ p'.auid = p.auid ∧ p'.type = p.type) ∧
      r = .ok (.obj T.objs.length) ∧ T' = { T with table := T1, objs := T.objs ++ [x] }) ∨
     ((∃ key ∈ x.vals.map (·.1), ∃ p ∈ l.flatMap (·.2.props), p.name = key ∧ p.auid ∉ ps.map (·.auid)) ∧ r = .error .assertion ∧ T' = { T with table := T1 }))

/-- How many numbers a call may use up. -/
def price (k : Nat) : Call V → Nat
  | .addClass a => a.props.length
  | .addProp _ _ => 1
  | .reopen _ => k
  | _ => 0

/-- What a call may do with some files; with each there is how many numbers are left, and `k` are used up by opening. -/
def WStep (X : Fixed) (k : Nat) (C : Codec V) (W : List (State V × Nat)) (c : WCall V) (r : Res (Ans V)) (W' : List (State V × Nat)) : Prop :=
  match c with
  | .on i c => ∃ S n S', W[i]? = some (S, n) ∧ Step X C S c r S' ∧ price k c ≤ n ∧ W' = W.set i (S', n - price k c)
  | .copy i o j => ∃ S n, W[i]? = some (S, n) ∧
    if i = j then S.ro = false ∧ ∃ x ps, S.objs[o]? = some x ∧ Lists S.table x.cls ps ∧ r = .ok (.obj S.objs.length) ∧ W' = W.set i ({ S with objs := S.objs ++ [x] }, n)
    else ∃ T m T' u, W[j]? = some (T, m) ∧ Copies X S o T r T' u ∧ u ≤ m ∧ W' = W.set j (T', m - u)

/-- Something is promised of a call. -/
def WSays (X : Fixed) (k : Nat) (C : Codec V) (W : List (State V × Nat)) (c : WCall V) : Prop := ∃ r W', WStep X k C W c r W'

/-- A history of calls with their answers. -/
inductive WRuns (X : Fixed) (k : Nat) (C : Codec V) : List (State V × Nat) → List (WCall V) → List (Res (Ans V)) → List (State V × Nat) → Prop
  | nil {W : List (State V × Nat)} : WRuns X k C W [] [] W
  | cons {W W' W'' : List (State V × Nat)} {c : WCall V} {cs : List (WCall V)} {r : Res (Ans V)} {rs : List (Res (Ans V))} :
    WStep X k C W c r W' → WRuns X k C W' cs rs W'' → WRuns X k C W (c :: cs) (r :: rs) W''

end Verif.Spec.Meta
