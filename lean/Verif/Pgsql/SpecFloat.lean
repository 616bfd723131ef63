import Verif.Pgsql.Spec
/-
Binary floating point numbers (IEEE 754) and the types float4, float8 and numeric of PostgreSQL:
which numbers there are, which of them is the nearest to a decimal, which text the server reads as
which number (float8in_internal and float4in_internal in float.c, numeric_in in numeric.c).
Nothing here is a model of code in /repo.

Magnitudes of both formats are given in units of 2^-1074, so that a float4 and the float8 it can be
converted to have the same magnitude.
-/
namespace Verif.PgServer

open Verif

/-- A format: the number of bits of the significand, and the exponents of its last bit, in units of
2^-1074: the least and the greatest. -/
structure FFmt where
  prec : Nat
  low : Nat
  top : Nat

/-- Single precision, Go's float32 and PostgreSQL's float4: 24 bits, 2^-149 to 2^104. -/
def single : FFmt := ⟨24, 925, 1178⟩

/-- Double precision, Go's float64 and PostgreSQL's float8: 53 bits, 2^-1074 to 2^971. -/
def double : FFmt := ⟨53, 0, 2045⟩

/-- A value: not a number, an infinity, or a number, by its sign and its magnitude. -/
inductive Fl where
  | nan
  | inf (neg : Bool)
  | fin (neg : Bool) (mag : Nat)
deriving Repr, DecidableEq

/-- The magnitude is that of a number of the format if it had no greatest exponent. -/
def FFmt.Fits (f : FFmt) (x : Nat) : Prop :=
  ∃ m e, x = m * 2 ^ e ∧ m < 2 ^ f.prec ∧ f.low ≤ e

/-- The same, with an even significand: the significand is less than 2^(prec-1) only for the least
exponent. -/
def FFmt.FitsEven (f : FFmt) (x : Nat) : Prop :=
  ∃ m e, x = m * 2 ^ e ∧ m < 2 ^ f.prec ∧ f.low ≤ e ∧ (e = f.low ∨ 2 ^ (f.prec - 1) ≤ m) ∧ m % 2 = 0

/-- All magnitudes of the format are below this one. -/
def FFmt.limit (f : FFmt) : Nat := 2 ^ (f.prec + f.top)

/-- The values of a format. -/
def Fl.In (f : FFmt) : Fl → Prop
  | .nan => True
  | .inf _ => True
  | .fin _ x => f.Fits x ∧ x < f.limit

/-- The distance of two numbers. -/
def dist (a b : Nat) : Nat := (a - b) + (b - a)

/-- The magnitude `x` is the nearest to the quotient `n / d`, and that with the even significand if
another one is as near. -/
def FFmt.Nearest (f : FFmt) (n d x : Nat) : Prop :=
  f.Fits x ∧ ∀ y, f.Fits y → dist (n * 2 ^ 1074) (x * d) ≤ dist (n * 2 ^ 1074) (y * d) ∧
    (dist (n * 2 ^ 1074) (x * d) = dist (n * 2 ^ 1074) (y * d) → y ≠ x → f.FitsEven x)

/-! ### Decimal numbers as text -/

/-- The number of one to five digits (exponents with more are left out). -/
def expNat (s : Bytes) : Option Nat :=
  if s.length > 0 ∧ s.all Char.isDigit ∧ Nat.ofDigitChars 10 s 0 < 100000 then
    some (Nat.ofDigitChars 10 s 0)
  else none

/-- The exponent after the letter `e`, as the powers of ten to multiply with and to divide by. -/
def expIn : Bytes → Option (Nat × Nat)
  | [] => some (0, 0)
  | _ :: '-' :: s => (expNat s).map fun e => (0, e)
  | _ :: '+' :: s => (expNat s).map fun e => (e, 0)
  | _ :: s => (expNat s).map fun e => (e, 0)

/-- Anything but the letter that begins an exponent. -/
def notE (c : Char) : Bool := !(c == 'e' || c == 'E')

/-- Anything but a decimal point. -/
def notPoint (c : Char) : Bool := c != '.'

/-- A decimal number without sign, as a quotient: digits, with a point before, between or after
them, and an exponent. -/
def magIn (s : Bytes) : Option (Nat × Nat) :=
  let m := s.takeWhile notE
  let i := m.takeWhile notPoint
  let fr := (m.dropWhile notPoint).drop 1
  if (i ++ fr).all Char.isDigit ∧ (i ++ fr).length > 0 then
    (expIn (s.dropWhile notE)).map fun e =>
      (Nat.ofDigitChars 10 (i ++ fr) 0 * 10 ^ e.1, 10 ^ (fr.length + e.2))
  else none

/-- A decimal number: its sign and its magnitude as a quotient. -/
def decIn : Bytes → Option (Bool × Nat × Nat)
  | '-' :: s => (magIn s).map (true, ·)
  | '+' :: s => (magIn s).map (false, ·)
  | s => (magIn s).map (false, ·)

/-- Letters without regard to case. -/
def fold (s : Bytes) : Bytes := s.map Char.toLower

/-- The texts of infinity. -/
def isInf (s : Bytes) : Bool := fold s = b!"inf" || fold s = b!"infinity"

/-- The server reads `t` as the value `v`: the names of the infinities and of NaN, or a decimal
number, which becomes the nearest number of the type. It is an error if that is too large, or if it is
zero and the decimal is not. -/
def FloatReads (f : FFmt) (t : Bytes) (v : Fl) : Prop :=
  (fold t = b!"nan" ∧ v = .nan) ∨
  (∃ s, (t = s ∨ t = '+' :: s) ∧ isInf s ∧ v = .inf false) ∨
  (∃ s, t = '-' :: s ∧ isInf s ∧ v = .inf true) ∨
  (∃ neg n d x, decIn t = some (neg, n, d) ∧ v = .fin neg x ∧ f.Nearest n d x ∧ x < f.limit ∧
    (n ≠ 0 → x ≠ 0))

/-- The server refuses the decimal number because no number of the type is near enough. -/
def FloatRange (f : FFmt) (t : Bytes) : Prop :=
  ∃ neg n d x, decIn t = some (neg, n, d) ∧ f.Nearest n d x ∧ (f.limit ≤ x ∨ n ≠ 0 ∧ x = 0)

/-- A numeric: not a number, or a decimal with a number of digits after the point. -/
inductive Num where
  | nan
  | dec (neg : Bool) (n k : Nat)
deriving Repr, DecidableEq

/-- `k` decimal digits of `n`. -/
def lastDigits : Nat → Nat → Bytes
  | 0, _ => []
  | k + 1, n => lastDigits k (n / 10) ++ [Nat.digitChar (n % 10)]

/-- The text of a decimal without sign. -/
def numMag (n k : Nat) : Bytes :=
  Nat.toDigits 10 (n / 10 ^ k) ++ if k = 0 then [] else '.' :: lastDigits k (n % 10 ^ k)

/-- The text the server writes for a numeric; there is no negative zero. -/
def numericOut : Num → Bytes
  | .nan => b!"NaN"
  | .dec neg n k => (if neg ∧ n ≠ 0 then ['-'] else []) ++ numMag n k

/-- The server reads a text without exponent as a numeric: all of its digits are kept. -/
def NumericReads (t : Bytes) : Num → Prop
  | .nan => fold t = b!"nan"
  | .dec neg n k => decIn t = some (neg, n, 10 ^ k) ∧ t.all notE = true

example : decIn b!"-12.50" = some (true, 1250, 100) ∧ decIn b!"1.5e+3" = some (false, 15000, 10) ∧
    decIn b!".5e-2" = some (false, 5, 1000) ∧ decIn b!"1e" = none ∧ decIn b!"-" = none ∧
    decIn b!"1.2.3" = none ∧ decIn b!"7." = some (false, 7, 1) ∧
    numericOut (.dec true 1250 2) = b!"-12.50" ∧ numericOut (.dec true 0 0) = b!"0" ∧
    numericOut (.dec false 5 3) = b!"0.005" := by
  decide +kernel

end Verif.PgServer
