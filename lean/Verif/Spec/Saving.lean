import Verif.Model.Saving
/-!
# What saving has to do

A file is a map from paths to objects, which are maps from properties to values.  Nothing here knows of a cache or of what is on disk; of the model only the calls,
the data types and what a reader finds (`stored`) are used.
-/
namespace Verif.Spec.Saving
open Verif.Saving (Entries Obj Op File stored)

/-- The values of an object: a property can be there without a value. -/
abbrev Values := Nat → Option (Option Bytes)

/-- The objects with their classes, those that were changed since the last save, and the properties that objects of a class must have. -/
structure Doc where
  required : Nat → List Nat
  objs : Nat → Option (Nat × Values)
  changed : Nat → Prop
  closed : Bool

/-- `es` are the values `v`. -/
def Holds (es : Entries) (v : Values) : Prop := ∀ pid x, v pid = some x ↔ (pid, x) ∈ es

/-- An object that can be saved: every property it must have is there, every property has a value, and sizes and numbers fit in 16 bits. -/
structure Savable (required : List Nat) (v : Values) : Prop where
  complete : ∀ pid ∈ required, v pid ≠ none
  values : ∀ pid, v pid ≠ some none
  fits : ∀ pid b, v pid = some (some b) → pid < 65536 ∧ b.length < 65536
  few : ∃ l : List Nat, l.length < 65536 ∧ ∀ pid, v pid ≠ none → pid ∈ l

/-- Every changed object can be saved. -/
def Ready (d : Doc) : Prop := ∀ p, d.changed p → ∀ c v, d.objs p = some (c, v) → Savable (d.required c) v

/-- The exceptions of a save that is refused. -/
def Refused (e : Err) : Prop := e = .propertyError ∨ e = .assertion ∨ e = .structError

/-- What a call does, and what it gives. -/
inductive Step : Doc → Op → Res (Option Bytes) → Doc → Prop
  | attach (d : Doc) (p : Nat) (o : Obj) (v : Values) (h : Holds o.entries v) :
      Step d (.attach p o) (.ok none)
        { d with objs := fun q => if q = p then some (o.cls, v) else d.objs q, changed := fun q => q = p ∨ d.changed q }
  | detach (d : Doc) (p : Nat) :
      Step d (.detach p) (.ok none) { d with objs := fun q => if q = p then none else d.objs q, changed := fun q => q ≠ p ∧ d.changed q }
  | get (d : Doc) (p pid c : Nat) (v : Values) (h : d.objs p = some (c, v)) : Step d (.get p pid) (.ok ((v pid).getD none)) d
  | getNone (d : Doc) (p pid : Nat) (h : d.objs p = none) : Step d (.get p pid) (.error .valueError) d
  | set (d : Doc) (p pid c : Nat) (x : Option Bytes) (v : Values) (h : d.objs p = some (c, v)) :
      Step d (.set p pid x) (.ok none)
        { d with
          objs := fun q => if q = p then some (c, fun i => if i = pid then x.map some else v i) else d.objs q
          changed := fun q => q = p ∨ d.changed q }
  | setNone (d : Doc) (p pid : Nat) (x : Option Bytes) (h : d.objs p = none) : Step d (.set p pid x) (.error .valueError) d
  | require (d : Doc) (c pid : Nat) :
      Step d (.require c pid) (.ok none) { d with required := fun k => if k = c then d.required c ++ [pid] else d.required k }
  | evict (d : Doc) (p : Nat) : Step d (.evict p) (.ok none) d
  | save (d : Doc) (hc : d.closed = false) (h : Ready d) : Step d .save (.ok none) { d with changed := fun _ => False }
  | saveRefused (d : Doc) (hc : d.closed = false) (h : ¬Ready d) (e : Err) (he : Refused e) : Step d .save (.error e) d
  | saveClosed (d : Doc) (hc : d.closed = true) : Step d .save (.error .ioError) d
  | close (d : Doc) (hc : d.closed = false) (h : Ready d) : Step d .close (.ok none) { d with changed := fun _ => False, closed := true }
  | closeRefused (d : Doc) (hc : d.closed = false) (h : ¬Ready d) (e : Err) (he : Refused e) : Step d .close (.error e) d
  | closeClosed (d : Doc) (hc : d.closed = true) : Step d .close (.error .ioError) d

/-- Several calls. -/
inductive Steps : Doc → List Op → List (Res (Option Bytes)) → Doc → Prop
  | nil (d : Doc) : Steps d [] [] d
  | cons {d d' d'' : Doc} {o : Op} {r : Res (Option Bytes)} {os rs} (h : Step d o r d') (hs : Steps d' os rs d'') : Steps d (o :: os) (r :: rs) d''

/-- A reader finds the objects of `d` with their values, and no others. -/
structure OnDisk (F : File) (d : Doc) : Prop where
  none : ∀ p, d.objs p = none → stored F p = .error .valueError
  values : ∀ p c v, d.objs p = some (c, v) → ∃ es, stored F p = .ok ⟨c, es⟩ ∧ (es.map (·.1)).Nodup ∧ Holds es v

/-- A file that was just opened, with the content `d`. -/
structure Opened (F : File) (d : Doc) : Prop where
  disk : OnDisk F d
  required : F.required = d.required
  closed : F.closed = false ∧ d.closed = false
  modified : F.modified = []
  changed : ∀ p, ¬d.changed p
  cache : ∀ p, F.cache p = none

/-- Every object of `d` can be saved. -/
def Complete (d : Doc) : Prop := ∀ p c v, d.objs p = some (c, v) → Savable (d.required c) v

/-- Calls with proper objects: a dictionary has a key once. -/
def Proper : Op → Prop
  | .attach _ o => (o.entries.map (·.1)).Nodup
  | _ => True

end Verif.Spec.Saving
