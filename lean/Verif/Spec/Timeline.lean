import Verif.Model.Sequence
/-!
# Specification of a timeline: where components start

Written from the AAF definition: a transition overlaps the component before it and the one after it.
-/
namespace Verif.Timeline
open Sequence (Comp)

/-- What a component adds to the running time. -/
def advance (c : Comp) : Int := if c.trans then -c.len else c.len

/-- Total time of a list of components. -/
def total (l : List Comp) : Int := (l.map advance).sum

/-- Start time of component number `i`. -/
def start (l : List Comp) (i : Nat) : Int :=
  total (l.take i) - match l[i]? with
    | some c => if c.trans then c.len else 0
    | none => 0

/-- Component `i` is there at time `t`. -/
def Covers (l : List Comp) (i : Nat) (t : Int) : Prop :=
  ∃ c, l[i]? = some c ∧ start l i ≤ t ∧ t < start l i + c.len

/-- Lengths are not negative; every transition has a positive length, follows a segment, and is not
longer than it. -/
structure Wf (l : List Comp) : Prop where
  len : ∀ c ∈ l, 0 ≤ c.len
  pos : ∀ c ∈ l, c.trans = true → 0 < c.len
  first : ∀ c, l[0]? = some c → c.trans = false
  prev : ∀ i c d, l[i]? = some c → l[i + 1]? = some d → d.trans = true →
    c.trans = false ∧ d.len ≤ c.len

/-- No segment starts at time `t` directly after another segment. -/
def NoCut (l : List Comp) (t : Int) : Prop :=
  ∀ i c d, l[i]? = some c → l[i + 1]? = some d → c.trans = false → d.trans = false → start l (i + 1) ≠ t

end Verif.Timeline
