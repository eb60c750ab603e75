import Verif.Model.Session
import Verif.Spec.ByteArray
/-!
# Specification of a file over any number of sessions

A file is a directory and byte arrays.  Uses nothing of the model but the names of the operations
and of their results: no sectors, tables, caches or records in the file.
-/
namespace Verif.Fat

/-- What a user sees: the first 116 bytes of the record of each entry (name, type, colour, links,
class id, times), and content and position of each stream. -/
structure AFile where
  dir : Nat → Option Bytes
  str : Spec

/-- The entry exists and is a stream. -/
def AFile.isStr (A : AFile) (id : Nat) : Prop := ∃ d, A.dir id = some d ∧ d.getD 66 0 = 2

/-- Replace one entry. -/
def AFile.put (A : AFile) (id : Nat) (d : Option Bytes) : Nat → Option Bytes :=
  fun j => if j = id then d else A.dir j

/-- A new entry: no name, black, not linked to any entry, no class and no times. -/
def blank (typ : UInt8) : Bytes :=
  List.replicate 66 0 ++ [typ, 0] ++ List.replicate 12 255 ++ List.replicate 36 0

/-- What an event may return and do to the file. -/
inductive AStep (A : AFile) : Ev → Option Out → AFile → Prop where
  | io {op o a id} (ht : op.target = some id) (hs : A.isStr id) (h : SpecStep A.str op o a) :
      AStep A (.op (.io op)) (some o) { A with str := a }
  | sector (sid b) : AStep A (.op (.io (.sector sid))) (some (.bytes b)) A
  | ioNot {op} (h1 : ∀ sid, op ≠ .sector sid) (h2 : ∀ id, op.target = some id → ¬ A.isStr id) :
      AStep A (.op (.io op)) none A
  | edit {id d e} (h : A.dir id = some e) (hl : d.length = 116) (ht : d.getD 66 0 = e.getD 66 0) :
      AStep A (.op (.edit id d)) none { A with dir := A.put id (some d) }
  | editNot {id d} (h : ∀ e, A.dir id = some e → ¬ (d.length = 116 ∧ d.getD 66 0 = e.getD 66 0)) :
      AStep A (.op (.edit id d)) none A
  | new {typ id} (ht : typ = 1 ∨ typ = 2) (h : A.dir id = none) :
      AStep A (.op (.new typ)) (some (.num id)) ⟨A.put id (some (blank typ)), A.str.set id [] 0⟩
  | newNot {typ} (ht : ¬ (typ = 1 ∨ typ = 2)) : AStep A (.op (.new typ)) none A
  | free {id} (h : A.dir id ≠ none) (h0 : id ≠ 0) :
      AStep A (.op (.free id)) none ⟨A.put id none, A.str.set id [] 0⟩
  | freeNot {id} (h : A.dir id = none ∨ id = 0) : AStep A (.op (.free id)) none A
  | flush : AStep A (.op .flush) none A
  | reopen : AStep A .reopen none { A with str := fun id => ((A.str id).1, 0) }

/-- A history of the specification. -/
inductive ARun : AFile → List Ev → List (Option Out) → AFile → Prop where
  | nil (A) : ARun A [] [] A
  | cons {A B C e o es os} (h1 : AStep A e o B) (h2 : ARun B es os C) :
      ARun A (e :: es) (o :: os) C

end Verif.Fat
