import Verif.Model.RbDir
/-!
# Names, creation, removal and listing in one storage (`/repo/src/aaf2/cfb.py`)

The entries of one storage: their order by name (665-704), creating and removing an entry
(`create_dir_entry` 1849-1858 with `add_child`; `pop`), and the listing (`listdir_dict` 1954-1983).
Names are lists of characters; `str.upper` is a parameter, any function on names.
-/
namespace Verif.Rb

/-- Used in `strLt`: cfb.py:679. -/
abbrev Name := List Char

/-- Python's `<` on strings: by code points, a proper prefix first (used in cfb.py:679). -/
def strLt : Name → Name → Bool
  | [], [] => false
  | [], _ :: _ => true
  | _ :: _, [] => false
  | a :: s, b :: t => if a.toNat < b.toNat then true else if b.toNat < a.toNat then false else strLt s t

/-- `DirEntry.__lt__` (cfb.py:672-681) and `DirEntry.__eq__` (cfb.py:696-704). -/
def nameOrd (up : Name → Name) : NameOrd Name where
  lt a b := if a.length = b.length then strLt (up a) (up b) else decide (a.length < b.length)
  eq a b := if a.length = b.length then up a == up b else false

/-- A storage as far as its children go: the entries by id and its `child_id`. (Used in `create`: cfb.py:1849-1857.) -/
structure Stor where
  heap : Heap Name
  child : Option Nat

/-- Create an entry with id `e` and name `k` (cfb.py:1849-1857): a new entry has no links
(cfb.py:480-497), then `add_child` (cfb.py:729-744). -/
def create (up : Name → Name) (maxDirs : Nat) (s : Stor) (e : Nat) (k : Name) : Res Stor := do
  let h := put s.heap e { left := none, right := none, red := false, key := k }
  let (h, c) ← addChild (nameOrd up) maxDirs h s.child e
  .ok { heap := h, child := c }

/-- Remove an entry (`entry.pop()`, cfb.py:1897). -/
def removeEnt (up : Name → Name) (maxDirs : Nat) (s : Stor) (e : Nat) : Res Stor := do
  let (h, c) ← pop (nameOrd up) maxDirs s.heap s.child e
  .ok { heap := h, child := c }

/-- `result[name] = value` on a dict in insertion order. (Used in `listLoop`: cfb.py:1968-1981.) -/
def dictSet (d : List (Name × Nat)) (k : Name) (v : Nat) : List (Name × Nat) :=
  if d.any (·.1 == k) then d.map fun p => if p.1 == k then (k, v) else p else d ++ [(k, v)]

/-- The loop of `listdir_dict` (cfb.py:1968-1981): the top of the stack is the head of the list; the
number is what is left until `count > max_dirs_entries`. -/
def listLoop (h : Heap Name) : Nat → List Nat → List (Name × Nat) → Res (List (Name × Nat))
  | _, [], d => .ok d
  | 0, _ :: _, _ => .error .cfbError
  | n + 1, i :: s, d =>
    let s := match (h.ent i).left with
      | none => s
      | some l => l :: s
    let s := match (h.ent i).right with
      | none => s
      | some r => r :: s
    listLoop h n s (dictSet d (h.ent i).key i)

/-- `listdir_dict` of a storage that is not in `children_cache` (cfb.py:1954-1983). -/
def listdir (maxDirs : Nat) (s : Stor) : Res (List (Name × Nat)) :=
  match s.child with
  | none => .ok []
  | some c => listLoop s.heap maxDirs [c] []

/-- An operation on the children of a storage. (Made of `Name` cfb.py:679.) -/
inductive Op where
  | add (e : Nat) (k : Name)
  | del (e : Nat)
  deriving DecidableEq

/-- Made of `Name` cfb.py:679, `Stor` cfb.py:1849-1857, `removeEnt` cfb.py:1897. -/
def step (up : Name → Name) (maxDirs : Nat) (s : Stor) : Op → Res Stor
  | .add e k => create up maxDirs s e k
  | .del e => removeEnt up maxDirs s e

/-- A history of operations. (Made of `Name` cfb.py:679, `Stor` cfb.py:1849-1857.) -/
def run (up : Name → Name) (maxDirs : Nat) : Stor → List Op → Res Stor
  | s, [] => .ok s
  | s, o :: r => do
    let s ← step up maxDirs s o
    run up maxDirs s r

end Verif.Rb
