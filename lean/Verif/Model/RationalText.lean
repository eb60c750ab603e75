import Verif.Model.Text
/-!
# Rational numbers from texts and floats (src/aaf2/rational.py:24-111)

A rational is a pair of numerator and denominator, which is not reduced.

Simplifications: texts are matched against `_RATIONAL_FORMAT` of Python's `fractions` module without
its underscores between digits, digits that are not ASCII and (since Python 3.12) blanks around `/`.
A float is the fraction that it is exactly, in lowest terms (`Fraction.from_float`); infinities and NaN
are left out.  `limit_denominator` is modelled as it is in the `fractions` module.  The product at
rational.py:41 is exact here instead of rounded to 53 bits.
-/
namespace Verif.RationalText

/-- `\d` for ASCII digits. (Used in `matchExp`: rational.py:56.) -/
def isDigit (c : Char) : Bool := 48 ≤ c.toNat && c.toNat ≤ 57

/-- `\s` for ASCII characters. (Used in `matchFormat`: rational.py:56.) -/
def isBlank (c : Char) : Bool := c.toNat = 32 || (9 ≤ c.toNat && c.toNat ≤ 13) || (28 ≤ c.toNat && c.toNat ≤ 31)

/-- `int(text)` of digits; `int(m.group('num') or '0')`, rational.py:60. -/
def intOf (s : Text) : Nat := s.foldl (fun n c => 10 * n + (c.toNat - 48)) 0

/-- The groups of `_RATIONAL_FORMAT`: `sign` is `-`. (Used in `matchFormat`: rational.py:56.) -/
structure Match where
  neg : Bool
  num : Text
  denom : Option Text
  decimal : Option Text
  exp : Option (Bool × Text)

/-- `[-+]?`: whether it is `-`, and the rest. (Used in `matchFormat`: rational.py:56.) -/
def sign : Text → Bool × Text
  | [] => (false, [])
  | c :: s => if c = '-' then (true, s) else if c = '+' then (false, s) else (false, c :: s)

/-- `(?:E(?P<exp>[-+]?\d+))?` without regard to case, then the rest has to be blank. (Made of `isBlank` rational.py:56.) -/
def matchExp (neg : Bool) (num : Text) (dec : Option Text) (s : Text) : Option Match :=
  match s with
  | [] => some ⟨neg, num, none, dec, none⟩
  | c :: s =>
    if c = 'e' ∨ c = 'E' then
      let (n, s1) := sign s
      let ds := s1.takeWhile isDigit
      if ds = [] then none
      else if (s1.dropWhile isDigit).all isBlank then some ⟨neg, num, none, dec, some (n, ds)⟩ else none
    else if (c :: s).all isBlank then some ⟨neg, num, none, dec, none⟩ else none

/-- What follows the sign.  The lookahead `(?=\d|\.\d)` asks for a digit before or after the point. (Used in `matchFormat`: rational.py:56.) -/
def matchNum (neg : Bool) (s : Text) : Option Match :=
  let num := s.takeWhile isDigit
  match s.dropWhile isDigit with
  | [] => if num = [] then none else some ⟨neg, num, none, none, none⟩
  | c :: r =>
    if c = '/' then
      let ds := r.takeWhile isDigit
      if num = [] ∨ ds = [] then none
      else if (r.dropWhile isDigit).all isBlank then some ⟨neg, num, some ds, none, none⟩ else none
    else if c = '.' then
      let ds := r.takeWhile isDigit
      if num = [] ∧ ds = [] then none else matchExp neg num (some ds) (r.dropWhile isDigit)
    else if num = [] then none else matchExp neg num none (c :: r)

/-- `_RATIONAL_FORMAT.match(numerator)`, rational.py:56. -/
def matchFormat (s : Text) : Option Match :=
  let (n, r) := sign (s.dropWhile isBlank)
  matchNum n r

/-- The digits after the point, rational.py:65-70. -/
def withDecimal (n : Int) : Option Text → Int × Int
  | some (c :: ds) => (n * 10 ^ (c :: ds).length + intOf (c :: ds), 10 ^ (c :: ds).length)
  | _ => (n, 1)

/-- The exponent, rational.py:71-77. -/
def withExp (r : Int × Int) : Option (Bool × Text) → Int × Int
  | none => r
  | some (false, e) => (r.1 * 10 ^ intOf e, r.2)
  | some (true, e) => if intOf e = 0 then r else (r.1, r.2 * 10 ^ intOf e)

/-- Numerator and denominator from the groups, rational.py:60-79. -/
def parts (m : Match) : Int × Int :=
  let r : Int × Int := match m.denom with
    | some d => (intOf m.num, intOf d)
    | none => withExp (withDecimal (intOf m.num) m.decimal) m.exp
  (if m.neg then -r.1 else r.1, r.2)

/-- `if denominator == 0`, rational.py:95-111. -/
def make (n d : Int) : Res (Int × Int) :=
  if d = 0 then (if n = 0 then .ok (0, 1) else .error .zeroDivision) else .ok (n, d)

/-- `AAFRational(text)`, rational.py:54-79, 95-111. -/
def ofText (s : Text) : Res (Int × Int) :=
  match matchFormat s with
  | none => .error .valueError
  | some m => make (parts m).1 (parts m).2

/-! ## Floats -/

/-- `0x7FFFFFFF`. (Used in `ofFloat`: rational.py:34-46.) -/
def big : Int := 0x7FFFFFFF

/-- State of the loop of `limit_denominator`. (Used in `limitLoop`: rational.py:39.) -/
structure Conv where
  n : Int
  d : Int
  p0 : Int
  q0 : Int
  p1 : Int
  q1 : Int

/-- The loop of `Fraction.limit_denominator` (Python, called at rational.py:39). -/
def limitLoop (max : Int) : Nat → Conv → Res Conv
  | 0, _ => .error .noFuel
  | fuel + 1, c =>
    if c.d = 0 then .error .zeroDivision
    else
      let a := c.n / c.d
      let q2 := c.q0 + a * c.q1
      if q2 > max then .ok c
      else limitLoop max fuel ⟨c.d, c.n - a * c.d, c.p1, c.q1, c.p0 + a * c.p1, q2⟩

/-- The distance of `p / q` from `n / d`, times `d` and `q`. (Used in `limit`: rational.py:39.) -/
def off (n d p q : Int) : Int := (p * d - n * q).natAbs

/-- `Fraction(n, d).limit_denominator(max)` (Python, called at rational.py:39). -/
def limit (max n d : Int) : Res (Int × Int) :=
  if d ≤ max then .ok (n, d)
  else match limitLoop max (d.toNat + 2) ⟨n, d, 0, 1, 1, 0⟩ with
    | .error e => .error e
    | .ok c =>
      let k := (max - c.q0) / c.q1
      let p := c.p0 + k * c.p1
      let q := c.q0 + k * c.q1
      if off n d c.p1 c.q1 * q ≤ off n d p q * c.q1 then .ok (c.p1, c.q1) else .ok (p, q)

/-- `AAFRational(f)` for a float `f = n / d`, rational.py:34-46. -/
def ofFloat (n d : Int) : Res (Int × Int) :=
  match limit big n d with
  | .error e => .error e
  | .ok (p, q) => if p > big ∨ p < -big then .ok (big, (q * big).tdiv p) else .ok (p, q)

end Verif.RationalText
