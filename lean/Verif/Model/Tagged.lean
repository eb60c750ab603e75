import Verif.Model.Utf16
/-!
# Comments of a mob (`/repo/src/aaf2/misc.py` 22-56, `/repo/src/aaf2/mobs.py` 75-77)

The vector of tagged values is a list; a tagged value has the stored bytes of its `Name` and of its
`Value` (absent if never set).  How a value is stored and read is a parameter: `encV` and `decV` (an
indirect value, see C11).  A value of `None`, which removes the property, is not modelled.
-/
namespace Verif.Tagged
open Utf16

/-- A `TaggedValue` object: the data of its two properties. (Used in `get`: misc.py:26-30.) -/
structure Tag where
  name : Bytes
  value : Option Bytes
  deriving DecidableEq

variable {β : Type}

/-- `TaggedValueHelper.get` (misc.py:26-30): the position of the first item with that name; reading a name
that does not decode raises. -/
def get : List Tag → Str → Res (Option Nat)
  | [], _ => .ok none
  | t :: ts, key =>
    match decode t.name with
    | .error e => .error e
    | .ok n =>
      if n = key then .ok (some 0)
      else
        match get ts key with
        | .error e => .error e
        | .ok none => .ok none
        | .ok (some i) => .ok (some (i + 1))

/-- `__contains__` (misc.py:32-33). -/
def contains (ts : List Tag) (key : Str) : Res Bool :=
  match get ts key with
  | .error e => .error e
  | .ok r => .ok r.isSome

/-- `item['Value'].value` (properties.py:142-147): `None` when there is no data. -/
def readValue (decV : Bytes → Res β) (t : Tag) : Res (Option β) :=
  match t.value with
  | none => .ok none
  | some b =>
    match decV b with
    | .error e => .error e
    | .ok v => .ok (some v)

/-- `__getitem__` (misc.py:35-40). -/
def getItem (decV : Bytes → Res β) (ts : List Tag) (key : Str) : Res (Option β) :=
  match get ts key with
  | .error e => .error e
  | .ok none => .error .indexError
  | .ok (some i) =>
    match ts[i]? with
    | none => .error .indexError
    | some t => readValue decV t

/-- `items` (misc.py:42-44). -/
def items (decV : Bytes → Res β) : List Tag → Res (List (Str × Option β))
  | [] => .ok []
  | t :: ts =>
    match decode t.name, readValue decV t with
    | .error e, _ => .error e
    | .ok _, .error e => .error e
    | .ok n, .ok v =>
      match items decV ts with
      | .error e => .error e
      | .ok r => .ok ((n, v) :: r)

/-- `append` (misc.py:46-47). -/
def append (ts : List Tag) (t : Tag) : List Tag := ts ++ [t]

/-- `tag['Value'].value = value` (properties.py:149-164) on the tag at position `i`. -/
def setValue (encV : β → Res Bytes) (ts : List Tag) (i : Nat) (v : β) : List Tag × Option Err :=
  match encV v with
  | .error e => (ts, some e)
  | .ok b => (ts.modify i fun t => { t with value := some b }, none)

/-- `__setitem__` (misc.py:49-56): the new vector and the exception raised, if any. -/
def setItem (encV : β → Res Bytes) (ts : List Tag) (key : Str) (v : β) : List Tag × Option Err :=
  match get ts key with
  | .error e => (ts, some e)
  | .ok (some i) => setValue encV ts i v
  | .ok none =>
    match encode key with
    | .error e => (ts, some e)
    | .ok b => setValue encV (append ts ⟨b, none⟩) ts.length v

end Verif.Tagged
