import Verif.Model.PropDef
/-!
# A definition is a record

A definition has six fields.  Reading a field gives it, setting a field that can be stored changes it and nothing else, a refused call changes nothing, and saving and
opening the file changes nothing.
-/
namespace Verif.Spec.PropDef
open Verif (Bytes Res)
open Verif.Utf16 (Str Scalar)
open Verif.PropDef (Op Ans)

/-- The fields. -/
structure Fields where
  name : Str
  id : Bytes
  type : Bytes
  pid : Nat
  optional : Bool
  unique : Bool

/-- A text that UTF-16 can encode. -/
abbrev Encodable (s : Str) : Prop := ∀ c ∈ s, Scalar c

/-- The record after a call. -/
def next (f : Fields) : Op → Fields
  | .setName s => if Encodable s then { f with name := s } else f
  | .setPid n => if n < 2 ^ 16 then { f with pid := n } else f
  | _ => f

/-- What the call gives. -/
def answer (f : Fields) : Op → Res Ans
  | .name => .ok (.text f.name)
  | .id => .ok (.auid f.id)
  | .type => .ok (.auid f.type)
  | .pid => .ok (.num f.pid)
  | .optional => .ok (.flag f.optional)
  | .unique => .ok (.flag f.unique)
  | .setName s => if Encodable s then .ok .done else .error .unicodeError
  | .setPid n => if n < 2 ^ 16 then .ok .done else .error .structError
  | .save => .ok .done
  | .reopen => .ok .done

/-- The answers to all calls. -/
def answers (f : Fields) : List Op → List (Res Ans)
  | [] => []
  | o :: os => answer f o :: answers (next f o) os

/-- Names that are set have no U+0000, and nothing is set after the file was saved (`fresh`: it was not yet). -/
def Plain (fresh : Bool) : Op → Prop
  | .setName s => Encodable s → fresh = true ∧ 0 ∉ s
  | .setPid n => n < 2 ^ 16 → fresh = true
  | _ => True

/-- Is it still not saved after a call? -/
def still (fresh : Bool) : Op → Bool
  | .save => false
  | .reopen => false
  | _ => fresh

/-- The calls are such. -/
def Kept (fresh : Bool) : List Op → Prop
  | [] => True
  | o :: os => Plain fresh o ∧ Kept (still fresh o) os

end Verif.Spec.PropDef
