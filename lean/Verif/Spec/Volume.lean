import Verif.Spec.PathTree
import Verif.Spec.ByteArray
/-!
# Specification: a tree of paths whose streams are byte arrays

Nothing of sectors, records, links or caches: what is at which path, the bytes and the position of
each stream, and the 36 bytes of class id, flags and times of each entry.  Closing the file and
opening it again is a call that changes nothing but the positions.
-/
namespace Verif.Volume
open Verif.PathTree

/-- What a user sees of a file. -/
structure AVol where
  tree : FS
  str : Fat.Spec
  stamp : Nat → Bytes

/-- Modes of `open`; `other` is any text that is none of the three. -/
inductive AMode where
  | r | w | rw | other
  deriving DecidableEq

/-- Calls. -/
inductive VCall where
  | path (c : Call)
  | open (p : Path) (m : AMode)
  | io (op : Fat.Op)
  | stamp (e : Nat) (b : Bytes)
  | flush
  | reopen

/-- Results. -/
inductive VAns where
  | path (a : Ans)
  | io (o : Option Fat.Out)

/-- Some entry has this identity. -/
def Has (T : FS) (e : Nat) : Prop := ∃ p b, T p = some (b, e)

/-- Entries that stay keep bytes, position and stamp; new entries have no bytes and a blank stamp. -/
structure Carried (A : AVol) (T : FS) (S : Fat.Spec) (K : Nat → Bytes) : Prop where
  old : ∀ e, Has T e → Has A.tree e → S e = A.str e ∧ K e = A.stamp e
  new : ∀ e, Has T e → ¬ Has A.tree e → S e = ([], 0) ∧ K e = List.replicate 36 0

/-- Replace one stamp. -/
def AVol.put (A : AVol) (e : Nat) (b : Bytes) : Nat → Bytes := fun j => if j = e then b else A.stamp j

/-- One call: answer and new state. -/
inductive VStep (A : AVol) : VCall → VAns → AVol → Prop where
  | path {c a T S K} (h : AStep A.tree c a T) (k : Carried A T S K) :
      VStep A (.path c) (.path a) ⟨T, S, K⟩
  /-- opening a stream puts the position to its start -/
  | openOld {p m e} (h : A.tree p = some (false, e)) (hm : m = .r ∨ m = .rw) :
      VStep A (.open p m) (.path (.ent (some e))) { A with str := A.str.set e (A.str e).1 0 }
  /-- opening it with `'w'` makes it empty and takes away its class id -/
  | openOver {p e} (h : A.tree p = some (false, e)) :
      VStep A (.open p .w) (.path (.ent (some e)))
        ⟨A.tree, A.str.set e [] 0, A.put e (List.replicate 16 0 ++ (A.stamp e).drop 16)⟩
  | openOther {p e} (h : A.tree p = some (false, e)) : VStep A (.open p .other) (.path .raised) A
  | openDir {p m} (h : IsStor A.tree p) : VStep A (.open p m) (.path .raised) A
  | openMissing {p} (h : A.tree p = none) : VStep A (.open p .r) (.path .raised) A
  /-- otherwise a stream is created; with an unknown mode this raises nevertheless -/
  | openNew {p m a T S K} (h : A.tree p = none) (hm : m ≠ .r) (s : AStep A.tree (.create p false) a T)
      (k : Carried A T S K) :
      VStep A (.open p m) (.path (if m = .other then .raised else a)) ⟨T, S, K⟩
  | io {op o s e} (ht : op.target = some e) (he : ∃ p, A.tree p = some (false, e))
      (h : Fat.SpecStep A.str op o s) : VStep A (.io op) (.io (some o)) { A with str := s }
  | sector (sid b) : VStep A (.io (.sector sid)) (.io (some (.bytes b))) A
  /-- calls on streams that do not exist are not made -/
  | ioNot {op} (h1 : ∀ sid, op ≠ .sector sid) (h : ∀ e, op.target = some e → ∀ p, A.tree p ≠ some (false, e)) :
      VStep A (.io op) (.io none) A
  | stamp {e b} (h : Has A.tree e) (hb : b.length = 36) :
      VStep A (.stamp e b) (.io none) { A with stamp := A.put e b }
  | stampNot {e b} (h : ¬ (Has A.tree e ∧ b.length = 36)) : VStep A (.stamp e b) (.io none) A
  | flush : VStep A .flush (.io none) A
  /-- the only effect of closing and opening: positions are at the start -/
  | reopen : VStep A .reopen (.io none) { A with str := fun e => ((A.str e).1, 0) }

/-- A history of calls. -/
inductive VRun : AVol → List VCall → List VAns → AVol → Prop where
  | nil (A) : VRun A [] [] A
  | cons {A B C c a cs as} (h : VStep A c a B) (t : VRun B cs as C) : VRun A (c :: cs) (a :: as) C

/-- The bytes of the stream at a path. -/
def AVol.bytes (A : AVol) (p : Path) : Option Bytes :=
  match A.tree p with
  | some (false, e) => some (A.str e).1
  | _ => none

/-- A new file: the root storage, with the class id of AAF files. -/
def start : AVol where
  tree := root
  str := fun _ => ([], 0)
  stamp := fun e => if e = 0 then
    [0xa5, 0x98, 0xb3, 0xb3, 0x90, 0x1c, 0xd4, 0x11, 0x80, 0x53, 0x08, 0x00, 0x36, 0x21, 0x08, 0x04] ++
      List.replicate 20 0
    else List.replicate 36 0

/-- The paths of a call. -/
def VCall.paths : VCall → List Path
  | .path c => c.paths
  | .open p _ => [p]
  | _ => []

/-- A new name longer than a record can take: `create` takes an id from the list of free ones before
it raises, and never gives it back. -/
def Long (A : FS) : Call → Prop
  | .create p _ => ∃ q n, p = q ++ [n] ∧ A p = none ∧ IsStor A q ∧ 32 < units n
  | .makedirs p => ∃ q n r, p = q ++ n :: r ∧ 32 < units n
  | _ => False

/-- Calls that are left out. -/
def Bad (up : Name → Name) (A : AVol) : VCall → Prop
  | .path c => Odd up A.tree c ∨ Long A.tree c
  | .open p m => A.tree p = none ∧ m ≠ .r ∧ (Odd up A.tree (.create p false) ∨ Long A.tree (.create p false))
  | _ => False

end Verif.Volume
