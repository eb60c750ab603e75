import Verif.Model.System
/-!
# Specification of streams: byte arrays with positions

Uses nothing of the model but the names of the operations and of their results.
-/
namespace Verif.Fat

/-- Content and position of every stream. -/
abbrev Spec := Nat → Bytes × Nat

/-- Replace content and position of one stream. -/
def Spec.set (a : Spec) (id : Nat) (b : Bytes) (p : Nat) : Spec :=
  fun j => if j = id then (b, p) else a j

/-- How many of the `rest` bytes after the position `read(n)` returns. -/
def count (n : Int) (rest : Nat) : Nat :=
  if n = -1 ∨ n ≥ rest then rest else n.toNat

/-- The position meant by `seek(offset, whence)`. -/
def goal (size pos : Nat) (offset : Int) : Nat → Int
  | 1 => pos + offset
  | 2 => size + offset
  | _ => offset

/-- What an operation may return and do to the byte arrays. -/
inductive SpecStep (a : Spec) : Op → Out → Spec → Prop where
  | read (id n) : SpecStep a (.read id n)
      (.bytes (((a id).1.drop (a id).2).take (count n ((a id).1.length - (a id).2))))
      (a.set id (a id).1 ((a id).2 + count n ((a id).1.length - (a id).2)))
  | write (id data) : SpecStep a (.write id data) .none
      (a.set id ((a id).1.take (a id).2 ++ data ++ (a id).1.drop ((a id).2 + data.length))
        ((a id).2 + data.length))
  | seek (id offset whence) (o : Nat) (h : goal (a id).1.length (a id).2 offset whence = o) :
      SpecStep a (.seek id offset whence) (.num o)
        (a.set id ((a id).1 ++ List.replicate (o - (a id).1.length) 0) o)
  | seekNeg (id offset whence) (h : goal (a id).1.length (a id).2 offset whence < 0) :
      SpecStep a (.seek id offset whence) .valueError a
  | tell (id) : SpecStep a (.tell id) (.num (a id).2) a
  | shrink (id size) (h : size ≤ (a id).1.length) : SpecStep a (.truncate id size) .none
      (a.set id ((a id).1.take size) (min (a id).2 size))
  | grow (id size) (junk : Bytes) (h : (a id).1.length + junk.length = size) (h0 : junk ≠ []) :
      SpecStep a (.truncate id size) .none (a.set id ((a id).1 ++ junk) (a id).2)
  | truncateHere (id) : SpecStep a (.truncateHere id) .none
      (a.set id ((a id).1.take (a id).2) (a id).2)
  | reopen (id) : SpecStep a (.reopen id) .none (a.set id (a id).1 0)
  | create (id) : SpecStep a (.create id) .none (a.set id [] 0)
  | growDir : SpecStep a .growDir .none a
  | flush (l) : SpecStep a (.flush l) .none a
  | sector (sid b) : SpecStep a (.sector sid) (.bytes b) a

/-- A history of the specification. -/
inductive SpecRun : Spec → List Op → List Out → Spec → Prop where
  | nil (a) : SpecRun a [] [] a
  | cons {a b c op o ops os} (h1 : SpecStep a op o b) (h2 : SpecRun b ops os c) :
      SpecRun a (op :: ops) (o :: os) c

end Verif.Fat
