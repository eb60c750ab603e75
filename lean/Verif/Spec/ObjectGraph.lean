import Verif.Model.Graph
/-!
# What calls on objects and references mean

Objects are a tree of Python values: a property is bytes, one object, a list or a dictionary.
Nothing here knows about storages, tables or files: only the calls and answers are taken from the
model.  `effect` says what a call answers and does; it is `none` where nothing is promised.
-/
namespace Verif.Spec.Objects
open Verif.Graph (Oid Key Pid Call Ans)

/-- The value of a property. -/
inductive Val where
  | data (b : Bytes)
  | one (c : Oid)
  | list (l : List Oid)
  | dict (d : List (Key × Oid))

def Val.refs : Val → List Oid
  | .data _ => []
  | .one c => [c]
  | .list l => l
  | .dict d => d.map (·.2)

/-- An object: `names` are its properties in order. -/
structure Thing where
  key : Option Key
  cls : Nat
  names : List Pid
  val : Pid → Option Val

/-- A new object. -/
def Thing.new (key : Option Key) (cls : Nat) : Thing := ⟨key, cls, [], fun _ => none⟩

def Thing.set (t : Thing) (pid : Pid) : Option Val → Thing
  | some v => { t with
      names := if pid ∈ t.names then t.names else t.names ++ [pid]
      val := fun q => if q = pid then some v else t.val q }
  | none => { t with
      names := t.names.filter (· ≠ pid)
      val := fun q => if q = pid then none else t.val q }

/-- Everything a program can see: `held` are its variables, `saved` is what the file has. -/
structure State where
  ro : Bool
  thing : Oid → Thing
  next : Nat
  held : List Oid
  saved : Option (Oid → Thing)

/-- `o` has `c` in one of its properties. -/
def Refers (t : Oid → Thing) (o c : Oid) : Prop := ∃ pid v, (t o).val pid = some v ∧ c ∈ v.refs

/-- `x` is `o` or below it. -/
inductive Inside (t : Oid → Thing) (o : Oid) : Oid → Prop
  | refl : Inside t o o
  | step {x u : Oid} : Refers t u x → Inside t o u → Inside t o x

/-- The object belongs to the file: it is below the root. -/
def Attached (t : Oid → Thing) (v : Oid) : Prop := Inside t 0 v

/-- The object belongs to nothing. -/
def Loose (t : Oid → Thing) (v : Oid) : Prop := v ≠ 0 ∧ ∀ o, ¬ Refers t o v

namespace State

/-- A property gets a value, or goes. -/
def set (S : State) (o : Oid) (pid : Pid) (v : Option Val) : State :=
  { S with thing := fun x => if x = o then (S.thing o).set pid v else S.thing x }

def hold (S : State) (l : List Oid) : State := { S with held := l ++ S.held }

/-- `v` may become part of `o`: it belongs to nothing, and `o` is not part of it. -/
def Linkable (S : State) (o v : Oid) : Prop := v ∈ S.held ∧ Loose S.thing v ∧ ¬ Inside S.thing v o

/-- As `Linkable`, or `v` is a member of the property that is replaced. -/
def Relinkable (S : State) (o : Oid) (l : List Oid) (v : Oid) : Prop :=
  v ∈ S.held ∧ (v ∈ l ∨ Loose S.thing v ∧ ¬ Inside S.thing v o)

end State

/-- The place in a list that a Python index means. -/
def place (i : Int) (n : Nat) : Option Nat :=
  if 0 ≤ i ∧ i < n then some i.toNat
  else if i < 0 ∧ 0 ≤ n + i then some (n + i).toNat
  else none

/-- The list in a property: a missing one is empty. -/
def listOf : Option Val → Option (List Oid)
  | none => some []
  | some (.list l) => some l
  | _ => none

def dictOf : Option Val → Option (List (Key × Oid))
  | none => some []
  | some (.dict d) => some d
  | _ => none

/-- `d[k] = c` where `k` is a key of `d`. -/
def dictSet (d : List (Key × Oid)) (k : Key) (c : Oid) : List (Key × Oid) :=
  d.map fun e => if e.1 = k then (k, c) else e

abbrev Outcome := Option (Res Ans × State)

/-- A call that returns and changes nothing else. -/
def answer (S : State) (a : Ans) : Outcome := some (.ok a, S)

def answerObj (S : State) (c : Oid) : Outcome := some (.ok (.obj c), S.hold [c])

/-- A call that raises and changes nothing. -/
def refuse (S : State) (e : Err) : Outcome := some (.error e, S)

open Classical in
/-- A reading call on an object in a variable. -/
noncomputable def reading (S : State) (o : Oid) (r : Outcome) : Outcome := if o ∈ S.held then r else none

open Classical in
/-- A changing call on an object in a variable: refused when the file is read-only. -/
noncomputable def changing (S : State) (o : Oid) (r : Outcome) : Outcome :=
  if o ∉ S.held then none else if S.ro then refuse S .propertyError else r

open Classical in
/-- The objects that a call is given: all loose, or one of them belongs to the file and the call is
refused. -/
noncomputable def linking (S : State) (o : Oid) (vs : List Oid) (r : Outcome) : Outcome :=
  if vs.Nodup ∧ ∀ v ∈ vs, S.Linkable o v then r
  else if (∀ v ∈ vs, v ∈ S.held) ∧ ∃ v ∈ vs, Attached S.thing v then refuse S .attachError
  else none

/-- The objects with their keys, when they all have one. -/
def keyed (t : Oid → Thing) : List Oid → Option (List (Key × Oid))
  | [] => some []
  | x :: l =>
    match (t x).key, keyed t l with
    | some k, some r => some ((k, x) :: r)
    | _, _ => none

/-- `save`. -/
def State.save (S : State) : State := if S.ro then S else { S with saved := some S.thing }

open Classical in
/-- The answer of a call and the state after it. -/
noncomputable def effect (S : State) : Call → Outcome
  | .create key cls =>
    some (.ok (.obj S.next), { S with
      thing := fun x => if x = S.next then .new key cls else S.thing x
      next := S.next + 1
      held := S.next :: S.held })
  | .keyOf o => reading S o (answer S (match (S.thing o).key with | none => .none | some k => .key k))
  | .classOf o => reading S o (answer S (.num (S.thing o).cls))
  | .propsOf o => reading S o (answer S (.keys (S.thing o).names))
  | .getData o pid => reading S o <|
    match (S.thing o).val pid with
    | none => answer S .none
    | some (.data b) => answer S (.bytes b)
    | _ => none
  | .setData o pid b => changing S o <|
    match (S.thing o).val pid with
    | none | some (.data _) => answer (S.set o pid (some (.data b))) .none
    | _ => none
  | .drop o pid => changing S o <|
    match (S.thing o).val pid with
    | none => answer S .none
    | some v => if v.refs = [] then answer (S.set o pid none) .none else none
  | .delete o pid => reading S o <|
    match (S.thing o).val pid with
    | none => refuse S .keyError
    | some v => if S.ro = false ∧ v.refs = [] then answer (S.set o pid none) .none else none
  | .setKey c k => changing S c <|
    if Loose S.thing c then
      answer { S with thing := fun x => if x = c then { S.thing c with key := some k } else S.thing x } .none
    else if Attached S.thing c ∧ (S.thing c).key ≠ none then refuse S .propertyError
    else none
  | .oneGet o pid => reading S o <|
    match (S.thing o).val pid with
    | none => if Attached S.thing o then answer S .none else refuse S .attributeError
    | some (.one c) => answerObj S c
    | _ => none
  | .oneSet o pid v => changing S o <|
    match (S.thing o).val pid with
    | none => if S.Linkable o v then answer (S.set o pid (some (.one v))) .none else none
    | _ => none
  | .oneSwap o pid v =>
    match (S.thing o).val pid with
    | some (.one c) =>
      changing S o (if S.Linkable o v then answerObj (S.set o pid (some (.one v))) c else none)
    | _ => none
  | .oneTake o pid =>
    match (S.thing o).val pid with
    | some (.one c) => changing S o (answerObj (S.set o pid none) c)
    | _ => none
  | .vecItems o pid => reading S o <|
    match listOf ((S.thing o).val pid) with
    | some l => answer (S.hold l) (.objs l)
    | none => none
  | .vecLen o pid => reading S o <|
    match listOf ((S.thing o).val pid) with
    | some l => answer S (.num l.length)
    | none => none
  | .vecAt o pid i => reading S o <|
    match listOf ((S.thing o).val pid) with
    | some l =>
      if i ≥ l.length then refuse S .indexError
      else match (place i l.length).bind (l[·]?) with
        | some c => answerObj S c
        | none => none
    | none => none
  | .vecExtend o pid vs => changing S o <|
    match listOf ((S.thing o).val pid) with
    | some l => linking S o vs (answer (S.set o pid (some (.list (l ++ vs)))) .none)
    | none => none
  | .vecSet o pid i v => changing S o <|
    match listOf ((S.thing o).val pid) with
    | some l =>
      if i ≥ l.length then refuse S .indexError
      else match place i l.length with
        | some j => linking S o [v] (answer (S.set o pid (some (.list (l.set j v)))) .none)
        | none => none
    | none => none
  | .vecClear o pid => changing S o <|
    match (S.thing o).val pid with
    | none => answer S .none
    | some (.list _) => answer (S.set o pid (some (.list []))) .none
    | _ => none
  | .vecPop o pid i => changing S o <|
    match listOf ((S.thing o).val pid) with
    | some l =>
      if i ≥ l.length then refuse S .indexError
      else match place i l.length with
        | some j =>
          match l[j]? with
          | some c => answerObj (S.set o pid (some (.list (l.eraseIdx j)))) c
          | none => none
        | none => none
    | none => none
  | .vecInsert o pid i v => changing S o <|
    match (S.thing o).val pid with
    | some (.list l) =>
      if 0 ≤ i ∧ i ≤ l.length ∧ S.Linkable o v then
        answer (S.set o pid (some (.list (l.take i.toNat ++ v :: l.drop i.toNat)))) .none
      else none
    | _ => none
  | .vecAssign o pid vs => changing S o <|
    match listOf ((S.thing o).val pid) with
    | some l =>
      if vs.Nodup ∧ ∀ v ∈ vs, S.Relinkable o l v then answer (S.set o pid (some (.list vs))) .none else none
    | none => none
  | .setItems o pid => reading S o <|
    match dictOf ((S.thing o).val pid) with
    | some d => answer (S.hold (d.map (·.2))) (.objs (d.map (·.2)))
    | none => none
  | .setKeys o pid => reading S o <|
    match dictOf ((S.thing o).val pid) with
    | some d => answer S (.keys (d.map (·.1)))
    | none => none
  | .setLen o pid => reading S o <|
    match dictOf ((S.thing o).val pid) with
    | some d => answer S (.num d.length)
    | none => none
  | .setHas o pid k => reading S o <|
    match dictOf ((S.thing o).val pid) with
    | some d => answer S (.flag (decide (k ∈ d.map (·.1))))
    | none => none
  | .setGet o pid k => reading S o <|
    match dictOf ((S.thing o).val pid) with
    | some d =>
      match d.lookup k with
      | some c => answerObj S c
      | none => answer S .none
    | none => none
  | .setExtend o pid vs => changing S o <|
    match dictOf ((S.thing o).val pid) with
    | some d => linking S o vs <|
      match keyed S.thing vs with
      | some e =>
        if (d ++ e).map (·.1) |>.Nodup then answer (S.set o pid (some (.dict (d ++ e)))) .none else none
      | none => none
    | none => none
  | .setSwap o pid v => reading S v <|
    match (S.thing o).val pid, (S.thing v).key with
    | some (.dict d), some k =>
      match d.lookup k with
      | some c =>
        changing S o (if S.Linkable o v then answerObj (S.set o pid (some (.dict (dictSet d k v)))) c else none)
      | none => none
    | _, _ => none
  | .setClear o pid => changing S o <|
    match (S.thing o).val pid with
    | none => answer S .none
    | some (.dict _) => answer (S.set o pid (some (.dict []))) .none
    | _ => none
  | .setPop o pid k => changing S o <|
    match dictOf ((S.thing o).val pid) with
    | some d =>
      match d.lookup k with
      | some c => answerObj (S.set o pid (some (.dict (d.filter (·.1 ≠ k))))) c
      | none => refuse S .keyError
    | none => none
  | .setAssign o pid vs => changing S o <|
    match dictOf ((S.thing o).val pid), keyed S.thing vs with
    | some d, some e =>
      if (e.map (·.1)).Nodup ∧ ∀ v ∈ vs, S.Relinkable o (d.map (·.2)) v then
        answer (S.set o pid (some (.dict e))) .none
      else none
    | _, _ => none
  | .rekey o pid c k => changing S c <|
    match (S.thing o).val pid, (S.thing c).key with
    | some (.dict d), some a =>
      if o ∈ S.held ∧ Attached S.thing c ∧ (a, c) ∈ d ∧ k ∉ d.map (·.1) then
        answer { S with thing := fun x =>
          if x = o then (S.thing o).set pid (some (.dict (d.filter (·.1 ≠ a) ++ [(k, c)])))
          else if x = c then { S.thing c with key := some k } else S.thing x } .none
      else none
    | _, _ => none
  | .forget c => if c = 0 then none else answer { S with held := S.held.filter (· ≠ c) } .none
  | .collect _ => answer S .none
  | .save => answer S.save .none
  | .reopen ro =>
    match S.save.saved with
    | some t => answer { S with ro := ro, thing := t, held := [0], saved := some t } .none
    | none => none
  | .abort ro =>
    match S.saved with
    | some t => answer { S with ro := ro, thing := t, held := [0] } .none
    | none => none

/-- What a call may do.  Leaving a file by an exception brings back what was saved, but for classes:
these are in the directory at once (core.py:205). -/
def Step (S : State) (c : Call) (r : Res Ans) (S' : State) : Prop :=
  ∃ S0, effect S c = some (r, S0) ∧
    match c with
    | .abort _ => ∃ t, (∀ o, ∃ cls, t o = { S0.thing o with cls := cls }) ∧ S' = { S0 with thing := t, saved := some t }
    | _ => S' = S0

/-- A history of calls with their answers. -/
inductive Runs : State → List Call → List (Res Ans) → State → Prop
  | nil {S : State} : Runs S [] [] S
  | cons {S S' S'' : State} {c : Call} {cs : List Call} {r : Res Ans} {rs : List (Res Ans)} :
    Step S c r S' → Runs S' cs rs S'' → Runs S (c :: cs) (r :: rs) S''

/-- The objects are a tree, and every member of a dictionary is there under its key. -/
structure Tree (t : Oid → Thing) : Prop where
  once : ∀ c o p v o' p' v', (t o).val p = some v → c ∈ v.refs → (t o').val p' = some v' → c ∈ v'.refs → o = o' ∧ p = p'
  nodup : ∀ o p v, (t o).val p = some v → v.refs.Nodup
  root : ∀ o, ¬ Refers t o 0
  acyclic : ∀ o c, Refers t o c → ¬ Inside t c o
  keys : ∀ o p d, (t o).val p = some (.dict d) → (d.map (·.1)).Nodup
  filed : ∀ o p d k c, (t o).val p = some (.dict d) → (k, c) ∈ d → (t c).key = some k
  names : ∀ o p, p ∈ (t o).names ↔ (t o).val p ≠ none

/-- A new file: the root. -/
def State.new : State := ⟨false, fun _ => .new none 1, 1, [0], none⟩

end Verif.Spec.Objects
