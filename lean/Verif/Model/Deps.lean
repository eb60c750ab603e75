import Verif.Model.Bytes
/-!
# Mobs a mob depends on (`/repo/src/aaf2/mobs.py` 150-176)

Mobs are represented by numbers (their mob ids).  `refs m` lists, in the order of
`mob.walk_references`, the mob each `SourceReference` below the mob `m` resolves to (`obj.mob`,
components.py:146-151: `None` for a null or unknown mob id).  `content.mobs` is keyed by mob id, so a
mob id stands for one mob object.
-/
namespace Verif.Deps

/-- Local variables of `dependant_mobs` and what was yielded so far.  The head of `stack` is Python's
`stack[-1]`. (Used in `step`: mobs.py:158-176.) -/
structure St where
  stack : List Nat
  visited : List Nat
  out : List Nat
  deriving DecidableEq, Repr

/-- The mobs pushed in one iteration (mobs.py:162-169), first pushed first. -/
def pushes (refs : Nat → List (Option Nat)) (visited : List Nat) (mob : Nat) : List Nat :=
  (refs mob).filterMap fun r =>
    match r with
    | none => none
    | some m => if m ∈ visited then none else some m

/-- One iteration of the loop (mobs.py:158-176); nothing when the stack is empty. -/
def step (refs : Nat → List (Option Nat)) (self : Nat) (st : St) : St :=
  match st.stack with
  | [] => st
  | mob :: rest =>
    match pushes refs st.visited mob with
    | [] =>
      if mob ∈ st.visited then { st with stack := rest }
      else
        { stack := rest
          visited := st.visited ++ [mob]
          out := if mob = self then st.out else st.out ++ [mob] }
    | p :: ps => { st with stack := (p :: ps).reverse ++ mob :: rest }

/-- `n` iterations. (Made of `St` mobs.py:158-176.) -/
def iter (refs : Nat → List (Option Nat)) (self : Nat) : Nat → St → St
  | 0, st => st
  | n + 1, st => iter refs self n (step refs self st)

/-- What `dependant_mobs` yields if its loop ends within `n` iterations. (Made of `iter` mobs.py:158-176.) -/
def dependantMobs (refs : Nat → List (Option Nat)) (self : Nat) (n : Nat) : Option (List Nat) :=
  let st := iter refs self n ⟨[self], [], []⟩
  if st.stack = [] then some st.out else none

end Verif.Deps
