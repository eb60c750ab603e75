import Verif.Model.Text
import Mathlib.Data.Rat.Defs
import Mathlib.Algebra.Field.Rat
/-!
# Specification: how numbers are written

A number is written with a sign, digits, and either a denominator, or a point with digits and an
exponent.  Blanks may be around it.  Nothing here is from the code.
-/
namespace Verif.Spec.RationalText

/-- The character of a digit. -/
def digit (k : Fin 10) : Char := Char.ofNat (48 + k.val)

/-- The number that digits are. -/
def number : List (Fin 10) → Nat
  | [] => 0
  | k :: l => k.val * 10 ^ l.length + number l

/-- A sign. -/
inductive Sign where
  | none | plus | minus

def Sign.text : Sign → Text
  | .none => []
  | .plus => ['+']
  | .minus => ['-']

def Sign.times : Sign → Int
  | .minus => -1
  | _ => 1

/-- The end of a number: a denominator, or digits after a point and an exponent (its letter, sign and
digits). -/
inductive Tail where
  | over (d : List (Fin 10))
  | point (f : Option (List (Fin 10))) (e : Option (Bool × Sign × List (Fin 10)))

/-- A number as it is written; `pre` and `post` are the blanks around it. -/
structure Literal where
  pre : Text
  sign : Sign
  whole : List (Fin 10)
  tail : Tail
  post : Text

/-- Blank characters. -/
def blanks : List Char := [' ', '\t', '\n', '\x0b', '\x0c', '\r', '\x1c', '\x1d', '\x1e', '\x1f']

/-- There are digits where there have to be. -/
def Literal.Valid (l : Literal) : Prop :=
  (∀ c ∈ l.pre, c ∈ blanks) ∧ (∀ c ∈ l.post, c ∈ blanks) ∧
  match l.tail with
  | .over d => l.whole ≠ [] ∧ d ≠ []
  | .point f e => (l.whole ≠ [] ∨ ∃ k r, f = some (k :: r)) ∧ ∀ u s x, e = some (u, s, x) → x ≠ []

def expText : Option (Bool × Sign × List (Fin 10)) → Text
  | none => []
  | some (u, s, x) => [if u then 'E' else 'e'] ++ s.text ++ x.map digit

def Tail.text : Tail → Text
  | .over d => '/' :: d.map digit
  | .point none e => expText e
  | .point (some f) e => '.' :: f.map digit ++ expText e

/-- The characters. -/
def Literal.text (l : Literal) : Text := l.pre ++ l.sign.text ++ l.whole.map digit ++ l.tail.text ++ l.post

/-- The power of ten of an exponent. -/
def expValue : Option (Bool × Sign × List (Fin 10)) → Rat
  | none => 1
  | some (_, s, x) => (10 : Rat) ^ (s.times * (number x : Int))

/-- The value. -/
def Literal.value (l : Literal) : Rat :=
  (l.sign.times : Rat) * match l.tail with
    | .over d => (number l.whole : Rat) / number d
    | .point f e => ((number l.whole : Rat) + (number (f.getD []) : Rat) / 10 ^ (f.getD []).length) * expValue e

/-- The decimal digits of a number. -/
def decimal (n : Nat) : List (Fin 10) :=
  if _h : n < 10 then [⟨n, _h⟩] else decimal (n / 10) ++ [⟨n % 10, Nat.mod_lt _ (by decide)⟩]
termination_by n
decreasing_by omega

/-- `str(r)` of a fraction: the denominator 1 is not written. -/
def str (n : Int) (d : Nat) : Text :=
  (if n < 0 then ['-'] else []) ++ (decimal n.natAbs).map digit ++ (if d = 1 then [] else '/' :: (decimal d).map digit)

end Verif.Spec.RationalText
