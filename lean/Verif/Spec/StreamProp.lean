import Verif.Model.StreamProp
/-!
# Specification: objects with byte arrays

Uses nothing of the model but the names of the events and answers: no containers, storages under
`/tmp`, names of streams or lists of modified objects' properties.  An object has, for every
property, a byte array or none.
-/
namespace Verif.StreamProp

/-- An object: its file, its place there if it is attached, whether it has unsaved changes, and the
bytes of its stream properties. -/
structure AObj where
  file : Nat
  place : Option Nat
  dirty : Bool
  val : Nat → Option Bytes

/-- What a user sees. -/
structure Look where
  objs : Nat → Option AObj
  count : Nat
  /-- which files can be changed -/
  wr : Nat → Bool

/-- Replace one object. -/
def Look.put (L : Look) (i : Nat) (a : Option AObj) : Look :=
  { L with objs := fun j => if j = i then a else L.objs j }

/-- Replace the bytes of one property. -/
def AObj.put (a : AObj) (pid : Nat) (b : Option Bytes) : AObj :=
  { a with val := fun q => if q = pid then b else a.val q }

/-- Bytes written at a position into an array; the gap is filled with zeros. -/
def overwrite (c : Bytes) (pos : Nat) (data : Bytes) (k : Nat) : Option UInt8 :=
  if k < pos then (if k < c.length then c[k]? else some 0)
  else if k < pos + data.length then data[k - pos]? else c[k]?

/-- What an event returns and does.  Events about which nothing is said have no rule: reading a
stream that is not there; writing a new stream of an attached object without unsaved changes;
attaching to a place that another object has; deleting the property of an attached object; leaving by
an exception; changing anything in a file that is open for reading only. -/
inductive Says (L : Look) : Ev → Ans → Look → Prop where
  | new {f} (hw : L.wr f = true) :
      Says L (.new f) (.obj L.count)
        ⟨(L.put L.count (some ⟨f, none, false, fun _ => none⟩)).objs, L.count + 1, L.wr⟩
  | read {i pid a b} (h : L.objs i = some a) (hv : a.val pid = some b) : Says L (.read i pid) (.bytes b) L
  | write {i pid m pos data a c} (h : L.objs i = some a) (hw : L.wr a.file = true)
      (hn : a.val pid ≠ none ∨ a.place = none ∨ a.dirty = true)
      (hc : ∀ k, c[k]? = overwrite (if m = .w then [] else (a.val pid).getD []) pos data k) :
      Says L (.write i pid m pos data) .unit (L.put i (some (a.put pid (some c))))
  | attach {i d a} (h : L.objs i = some a) (hw : L.wr a.file = true) (hp : a.place = none)
      (hf : ∀ j b, L.objs j = some b → b.file = a.file → b.place ≠ some d) :
      Says L (.attach i d) .unit (L.put i (some { a with place := some d, dirty := true }))
  | detach {i a} (h : L.objs i = some a) (hw : L.wr a.file = true) (hp : a.place ≠ none) :
      Says L (.detach i) .unit (L.put i (some { a with place := none, dirty := false }))
  | copy {i g a} (h : L.objs i = some a) (hw : L.wr g = true) :
      Says L (.copy i g) (.obj L.count)
        ⟨(L.put L.count (some ⟨g, none, false, a.val⟩)).objs, L.count + 1, L.wr⟩
  | del {i pid a} (h : L.objs i = some a) (hw : L.wr a.file = true) (hp : a.place = none) (hv : a.val pid ≠ none) :
      Says L (.del i pid) .unit (L.put i (some (a.put pid none)))
  | change {i a} (h : L.objs i = some a) (hw : L.wr a.file = true) :
      Says L (.change i) .unit (L.put i (some { a with dirty := a.place.isSome }))
  | reload {i a} (h : L.objs i = some a) : Says L (.reload i) .unit L
  | save {f} (hw : L.wr f = true) : Says L (.save f) .unit
      { L with objs := fun i => (L.objs i).map fun a => if a.file = f then { a with dirty := false } else a }
  | close (f ro) : Says L (.close f ro) .unit
      { L with
        objs := fun i => match L.objs i with
          | some a => if a.file = f then (if a.place.isSome then some { a with dirty := false } else none) else some a
          | none => none
        wr := fun g => if g = f then !ro else L.wr g }

/-- A program. -/
inductive Tells : Look → List Ev → List Ans → Look → Prop where
  | nil (L) : Tells L [] [] L
  | cons {L L1 L2 e a es as} (h : Says L e a L1) (t : Tells L1 es as L2) :
      Tells L (e :: es) (a :: as) L2

/-- New files, no objects. -/
def nothing : Look := ⟨fun _ => none, 0, fun _ => true⟩

end Verif.StreamProp
