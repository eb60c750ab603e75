import Verif.Model.Handles
/-!
# What properties that a program keeps have to do

An object is a map from names to values.  A property that a program got from an object stands for its name.  Of the model only the calls and their results are used.
-/
namespace Verif.Spec.Handles
open Verif.Handles (Op Out Use)

/-- `holder` is the property that the object gives out for a name with a value; `handles` are the names of the properties that were given out (of properties of the
file without a definition: none), and `used` those that got a value at some time. -/
structure Doc where
  names : List Nat
  vals : Nat → Option Bytes
  holder : Nat → Option Nat
  handles : List (Option Nat)
  used : Nat → Prop

/-- Changing one entry of a map. -/
def setAt {β : Type} (f : Nat → β) (k : Nat) (v : β) : Nat → β := fun j => if j = k then v else f j

/-- What a call does.  Nothing is said about reading or writing by a property while another one holds the value of its name, nor about reading by one that had a value
that was removed. -/
inductive Step : Doc → Op → Res Out → Doc → Prop
  | item (d : Doc) (n i : Nat) (hv : d.vals n ≠ none) (hi : d.holder n = some i) : Step d (.item n) (.ok (.handle i)) d
  | new (d : Doc) (n : Nat) (hn : n ∈ d.names) (hv : d.vals n = none) :
      Step d (.item n) (.ok (.handle d.handles.length)) { d with handles := d.handles ++ [some n] }
  | unknown (d : Doc) (n : Nat) (hn : n ∉ d.names) : Step d (.item n) (.error .keyError) d
  | read (d : Doc) (i n : Nat) (h : d.handles[i]? = some (some n)) (hc : d.holder n = some i ∨ d.vals n = none ∧ ¬d.used i) :
      Step d (.read i) (.ok (.value (d.vals n))) d
  | write (d : Doc) (i n : Nat) (b : Bytes) (h : d.handles[i]? = some (some n)) (hc : d.holder n = some i ∨ d.vals n = none) :
      Step d (.write i (some b)) (.ok .done)
        { d with vals := setAt d.vals n (some b), holder := setAt d.holder n (some i), used := fun j => j = i ∨ d.used j }
  | remove (d : Doc) (i n : Nat) (h : d.handles[i]? = some (some n)) :
      Step d (.write i none) (.ok .done) { d with vals := setAt d.vals n none, holder := setAt d.holder n none }
  | delete (d : Doc) (n : Nat) (hv : d.vals n ≠ none) : Step d (.delete n) (.ok .done) { d with vals := setAt d.vals n none, holder := setAt d.holder n none }
  | deleteNone (d : Doc) (n : Nat) (hv : d.vals n = none) : Step d (.delete n) (.error .keyError) d
  | contains (d : Doc) (n : Nat) : Step d (.contains n) (.ok (.bool (d.vals n).isSome)) d
  | getvalue (d : Doc) (n : Nat) : Step d (.getvalue n) (.ok (.value (d.vals n))) d

/-- Several calls. -/
inductive Steps : Doc → List Op → List (Res Out) → Doc → Prop
  | nil (d : Doc) : Steps d [] [] d
  | cons {d d' d'' : Doc} {o r os rs} (h : Step d o r d') (hs : Steps d' os rs d'') : Steps d (o :: os) (r :: rs) d''

/-- The object of a class with the names and pids `defs` was just read, with the values `l`. -/
structure Opened (defs : List (Nat × Nat)) (l : List (Nat × Bytes)) (d : Doc) : Prop where
  names : d.names = defs.map (·.1)
  vals : ∀ n b, d.vals n = some b ↔ ∃ pid, (n, pid) ∈ defs ∧ (pid, b) ∈ l
  holder : ∀ (n i : Nat), d.holder n = some i ↔ ∃ pid b, (n, pid) ∈ defs ∧ l[i]? = some (pid, b)
  length : d.handles.length = l.length
  handles : ∀ (i n : Nat), d.handles[i]? = some (some n) ↔ ∃ pid b, (n, pid) ∈ defs ∧ l[i]? = some (pid, b)
  used : ∀ i, d.used i ↔ i < l.length

/-- Names and pids of a class are different. -/
structure Proper (defs : List (Nat × Nat)) : Prop where
  names : (defs.map (·.1)).Nodup
  pids : (defs.map (·.2)).Nodup

/-- For a program that keeps no properties an object is a map: the map afterwards and the result. -/
def use (names : List Nat) (m : Nat → Option Bytes) : Use → (Nat → Option Bytes) × Res Out
  | .put n v => if n ∈ names then (setAt m n v, .ok .done) else (m, .error .keyError)
  | .look n => (m, if n ∈ names then .ok (.value (m n)) else .error .keyError)
  | .delete n => if (m n).isSome then (setAt m n none, .ok .done) else (m, .error .keyError)
  | .contains n => (m, .ok (.bool (m n).isSome))
  | .getvalue n => (m, .ok (.value (m n)))

/-- The results of several lines. -/
def uses (names : List Nat) (m : Nat → Option Bytes) : List Use → List (Res Out)
  | [] => []
  | u :: us => (use names m u).2 :: uses names (use names m u).1 us

end Verif.Spec.Handles
