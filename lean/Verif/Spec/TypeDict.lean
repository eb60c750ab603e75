import Verif.Model.TypeDict
/-!
# What a type means

A file says for identifiers what type they are.  Components are identifiers; there are no names of types, no
dictionaries and no definitions as objects.
-/
namespace Verif.Spec.TDict
open Verif.Meta (Auid Name)
open Verif.Types (Ty Fields Val enc dec)
open Verif.Utf16 (Str)
open Verif.TDict (Kind boolAuid charAuid special)

abbrev Table := Auid → Option Kind

/-- Which types can be members of records, and if the character type is named "Character". -/
structure Names where
  mem : Auid → Bool
  char : Bool

instance : CoeFun Names (fun _ => Auid → Bool) := ⟨Names.mem⟩

/-- All types can be members. -/
def Names.all (P : Names) : Names := ⟨fun _ => true, P.char⟩

def members (f : Auid → Option Ty) : List (Str × Auid) → Option Fields
  | [] => some .nil
  | (n, a) :: l => (f a).bind fun t => (members f l).map (Fields.cons n t)

/-- The type with an identifier. -/
def means (T : Table) (P : Names) : Nat → Auid → Option Ty
  | 0, _ => none
  | n + 1, a =>
    match T a with
    | some (.int s g) => some (.int s g)
    | some (.enum e els) =>
      if a = boolAuid then some .bool
      else match T e with
        | some (.int s g) => some (.enum s g els)
        | _ => none
    | some (.ext els) => some (.extEnum els)
    | some (.fixed e c) => (means T P n e).map (Ty.fixed · c)
    | some (.var e) => if e = charAuid then some (.strArray P.char) else (means T P n e).map .var
    | some (.set e) => (means T P n e).map .set
    | some (.str _) => some .str
    | some (.record fs) =>
      match special a with
      | some t => some t
      | none => if fs.all fun f => P f.2 then (members (means T P n) fs).map .record else none
    | some (.rename e) => (means T P n e).map .rename
    | _ => none

/-- Elements that are found in the one list, by value or by name, are found in the other list. -/
def Finds {κ : Type} [DecidableEq κ] (norm : Str → Str) (l l' : List (κ × Str)) : Prop :=
  (∀ k e, l.find? (fun e => e.1 = k) = some e → l'.find? (fun e => e.1 = k) = some e) ∧
  (∀ s k, (l.find? fun e => norm e.2 = norm s).map (·.1) = some k → (l'.find? fun e => norm e.2 = norm s).map (·.1) = some k)

mutual
/-- The same type, where enumerations can have more elements. -/
def Wider (lower : Str → Str) : Ty → Ty → Prop
  | .enum s g els, u => ∃ els', u = .enum s g els' ∧ Finds id els els'
  | .extEnum els, u => ∃ els', u = .extEnum els' ∧ Finds lower els els'
  | .fixed t n, u => ∃ t', u = .fixed t' n ∧ Wider lower t t'
  | .var t, u => ∃ t', u = .var t' ∧ Wider lower t t'
  | .set t, u => ∃ t', u = .set t' ∧ Wider lower t t'
  | .rename t, u => ∃ t', u = .rename t' ∧ Wider lower t t'
  | .record fs, u => ∃ gs, u = .record gs ∧ WiderF lower fs gs
  | .int s g, u => u = .int s g
  | .bool, u => u = .bool
  | .strArray n, u => u = .strArray n
  | .str, u => u = .str
  | .mobid, u => u = .mobid
  | .auid, u => u = .auid
  | .rational, u => u = .rational
  | .date, u => u = .date
  | .time, u => u = .time
  | .stamp, u => u = .stamp
def WiderF (lower : Str → Str) : Fields → Fields → Prop
  | .nil, g => g = .nil
  | .cons n t rest, g => ∃ t' rest', g = .cons n t' rest' ∧ Wider lower t t' ∧ WiderF lower rest rest'
end

/-- Values are read and written in the same way.  An extendible enumeration gives an identifier that it does not know as it is, so
another file can have a name for it. -/
def Carries (lower : Str → Str) (t u : Ty) : Prop :=
  (∀ v b, enc lower t v = .ok b → enc lower u v = .ok b) ∧
  (∀ b v, dec t b = .ok v → dec u b = .ok v ∨ (v = .auid b ∧ ∃ s, dec u b = .ok (.text s)))

/-- No value and no name twice. -/
def Clean {κ : Type} (norm : Str → Str) (els : List (κ × Str)) : Prop := (els.map (·.1)).Nodup ∧ (els.map fun e => norm e.2).Nodup

/-- Two lists give no value two names and no name two values. -/
def Agree {κ : Type} (norm : Str → Str) (els els' : List (κ × Str)) : Prop := ∀ e ∈ els, ∀ e' ∈ els', e.1 = e'.1 ∨ norm e.2 = norm e'.2 → e = e'

/-- What is needed to bring the type `a` of `S` to `T`: it is unknown there and it is a data type whose components can be brought (if
it is a record, the types of its members can be members), or it is the same type there with the same components, or both are enumerations that agree. -/
def Fit (lower : Str → Str) (S T : Table) (P : Names) : Nat → Auid → Prop
  | n, a =>
    ∃ k, S a = some k ∧
    match T a with
    | none =>
      match n with
      | 0 => False
      | n + 1 =>
        match k with
        | .enum e _ => (∃ s g, S e = some (.int s g)) ∧ Fit lower S T P n e
        | .fixed e _ | .var e | .str e | .rename e => Fit lower S T P n e
        | .record fs => ∀ f ∈ fs, P f.2 = true ∧ Fit lower S T P n f.2
        | .set _ | .weak _ | .strong _ => False
        | _ => True
    | some k' =>
      match k, k' with
      | .enum e els, .enum e' els' => e = e' ∧ (∃ s g, S e = some (.int s g) ∧ T e = some (.int s g)) ∧ Clean id els ∧ Agree id els els'
      | .ext els, .ext els' => Clean lower els ∧ Clean lower els' ∧ Agree lower els els'
      | .enum _ _, _ | .ext _, _ => False
      | _, _ => ∀ n t, means S P.all n a = some t → ∃ u, means T P n a = some u ∧ Wider lower t u

/-- What a dictionary says for identifiers. -/
def kinds (d : Verif.TDict.Dict) : Table := fun a => (d.type a).map Verif.TDict.TDef.kind

/-- "TypeDefinitionInteger" and the other names of classes of types. -/
def classNames : List Name := [
  0x54797065446566696e6974696f6e496e7465676572,
  0x54797065446566696e6974696f6e456e756d65726174696f6e,
  0x54797065446566696e6974696f6e457874656e6469626c65456e756d65726174696f6e,
  0x54797065446566696e6974696f6e46697865644172726179,
  0x54797065446566696e6974696f6e5661726961626c654172726179,
  0x54797065446566696e6974696f6e536574,
  0x54797065446566696e6974696f6e537472696e67,
  0x54797065446566696e6974696f6e5265636f7264,
  0x54797065446566696e6974696f6e52656e616d65,
  0x54797065446566696e6974696f6e436861726163746572,
  0x54797065446566696e6974696f6e5374726f6e674f626a6563745265666572656e6365,
  0x54797065446566696e6974696f6e5765616b4f626a6563745265666572656e6365,
  0x54797065446566696e6974696f6e53747265616d,
  0x54797065446566696e6974696f6e4f7061717565,
  0x54797065446566696e6974696f6e496e646972656374,
  0x54797065446566696e6974696f6e47656e65726963436861726163746572]

/-- A dictionary in which the types `P` are found by their names, which are not names of classes of types, and no type but the
character type is named "Character". -/
structure Good (P : Names) (d : Verif.TDict.Dict) : Prop where
  low : ∀ a i, Verif.Meta.get d.byAuid a = some i → i < d.heap.length
  own : ∀ a t, d.type a = some t → t.auid = a
  named : ∀ a, P a = true → ∃ t, d.type a = some t ∧ Verif.Meta.get d.byName t.name = Verif.Meta.get d.byAuid a ∧ t.name ∉ classNames
  char : ∃ t, d.type charAuid = some t ∧ (t.name == Verif.TDict.characterName) = P.char
  chars : ∀ a t, d.type a = some t → t.name = Verif.TDict.characterName → a = charAuid
  clean : ∀ a e els, kinds d a = some (.enum e els) → Clean id els

/-- A file that types are brought from: enumerations have no value and no name twice. -/
structure Source (S : Verif.TDict.Dict) : Prop where
  own : ∀ a t, S.type a = some t → t.auid = a
  clean : ∀ a e els, kinds S a = some (.enum e els) → Clean id els

/-- A type or a class that is brought from a file. -/
structure Request where
  file : Verif.TDict.Dict
  depth : Nat
  auid : Auid
  cls : Bool

/-- The dictionary after a request, however it ends. -/
def after (d : Verif.TDict.Dict) (r : Request) : Verif.TDict.Dict :=
  if r.cls then (Verif.TDict.bringTop r.file r.depth d r.auid).2 else (Verif.TDict.bring r.file r.depth d r.auid).2

end Verif.Spec.TDict
