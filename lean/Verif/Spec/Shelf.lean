import Verif.Model.Graph
/-!
# Specification: storages and what was last written there

Calls on the container, as far as objects make them: a storage has a class and the record that was
last written there.
-/
namespace Verif.Graph

/-- Storages, their classes, and what was last written there. -/
structure Shelf where
  dirs : Place → Bool
  cls : Place → Nat
  recs : Place → Option Rec

/-- Only the root, of class 1; 0 stands for no class. -/
def Shelf.new : Shelf := ⟨upd (fun _ => false) [] true, upd (fun _ => 0) [] 1, fun _ => none⟩

/-- The storages after a call. -/
def Act.apply (s : Shelf) : Act → Shelf
  | .makeDir p nm => { s with dirs := upd s.dirs (nm :: p) true }
  | .setCls p c => { s with cls := upd s.cls p c }
  | .write p r => { s with recs := upd s.recs p (some r) }
  | .read .. => s
  | .reopen => s

/-- After several. -/
def play : Shelf → List Act → Shelf
  | s, [] => s
  | s, a :: l => play (a.apply s) l

/-- A record: every property once, every key of a set once. -/
structure Rec.Sound (r : Rec) : Prop where
  nodup : r.pids.Nodup
  mem : ∀ pid, pid ∈ r.pids ↔ r.prp pid ≠ none
  keys : ∀ pid refs n, r.prp pid = some (.set refs n) → (refs.map (·.1)).Nodup

/-- The storage is there, what is written is a record, and what was read is what the storage has. -/
def Act.Placed (s : Shelf) : Act → Prop
  | .makeDir p _ => s.dirs p = true
  | .setCls p _ => s.dirs p = true
  | .write p r => s.dirs p = true ∧ r.Sound
  | .read p c r => s.dirs p = true ∧ s.cls p = c ∧ s.recs p = r
  | .reopen => True

/-- All of them. -/
def Placed : Shelf → List Act → Prop
  | _, [] => True
  | s, a :: l => a.Placed s ∧ Placed (a.apply s) l

end Verif.Graph
