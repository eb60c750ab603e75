import Verif.Model.DirList
/-!
# What the children of a storage are, independently of the tree

A history of creations and removals leaves a list of (id, name) pairs.  Other readers look a name up
by descending the stored links with the order of the compound file format: shorter names first,
then by upper case form.
-/
namespace Verif.DirSpec
open Verif.Rb (Name Heap Op)

/-- The entries after an operation. -/
def apply (l : List (Nat × Name)) : Op → List (Nat × Name)
  | .add e k => l ++ [(e, k)]
  | .del e => l.filter fun p => p.1 != e

/-- The entries after a history. -/
def after : List (Nat × Name) → List Op → List (Nat × Name)
  | l, [] => l
  | l, o :: r => after (apply l o) r

/-- Names that are the same apart from case. -/
def sameName (up : Name → Name) (a b : Name) : Prop := a.length = b.length ∧ up a = up b

/-- An operation a caller can ask for: a created entry has a new id and a name that differs from all
names there; a removed entry is there.  `room` is the number of entries the directory has place for
(id 0 is the root storage, see `next_free_dir_id`). -/
def Ok (up : Name → Name) (room : Nat) (l : List (Nat × Name)) : Op → Prop
  | .add e k => e ≠ 0 ∧ (∀ p ∈ l, p.1 ≠ e ∧ ¬ sameName up k p.2) ∧ l.length + 1 < room
  | .del e => ∃ p ∈ l, p.1 = e

/-- All operations of the history can be asked for. -/
def OkAll (up : Name → Name) (room : Nat) : List (Nat × Name) → List Op → Prop
  | _, [] => True
  | l, o :: r => Ok up room l o ∧ OkAll up room (apply l o) r

/-- Look a name up as other readers of the format do, with at most `n` comparisons. -/
def seek (up : Name → Name) (left right : Nat → Option Nat) (name : Nat → Name) (k : Name) :
    Nat → Option Nat → Option Nat
  | _, none => none
  | 0, some _ => none
  | n + 1, some i =>
    let m := name i
    if k.length = m.length ∧ up k = up m then some i
    else if k.length < m.length ∨ (k.length = m.length ∧ List.lex (up k) (up m) (· < ·) = true) then
      seek up left right name k n (left i)
    else seek up left right name k n (right i)

end Verif.DirSpec
