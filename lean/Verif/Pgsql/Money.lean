import Verif.Pgsql.Codecs
/-
Model of money.go and moneyarr.go of package `pgsql`, and of the part of float64 arithmetic they
use: conversion from int64, division and multiplication by 100, `strconv.AppendFloat` with two
decimals, `strconv.ParseFloat`, conversion to int64.

The magnitude of a finite float64 is a whole number of units of 2^-1074; it is given by that
number. Values too large for a float64 do not occur: an int64 is far below.
-/
namespace Verif.Pgsql

open Verif

/-- 1.0 in units of 2^-1074. -/
def unit : Nat := 2 ^ 1074

/-- `n / d` rounded to the nearest whole number, ties to even. -/
def roundEven (n d : Nat) : Nat :=
  if 2 * (n % d) < d then n / d
  else if 2 * (n % d) > d then n / d + 1
  else if n / d % 2 = 0 then n / d else n / d + 1

/-- The exponent, in units, of the last of the 53 bits of the float64 nearest to `n / d`. -/
def lastBit (n d : Nat) : Nat := Nat.log2 (n * unit / d) - 52

/-- The float64 nearest to `n / d` (IEEE 754, round to nearest, ties to even). -/
def toFloat (n d : Nat) : Nat := roundEven (n * unit) (d * 2 ^ lastBit n d) * 2 ^ lastBit n d

/-- Two decimal digits. -/
def cents2 (n : Nat) : Bytes := [Nat.digitChar (n / 10), Nat.digitChar (n % 10)]

/-- `strconv.AppendFloat(nil, x, 'f', 2, 64)` for the float64 of magnitude `x`, negative if
`neg`. -/
def fmtCents (neg : Bool) (x : Nat) : Bytes :=
  let c := roundEven (x * 100) unit
  (if neg then ['-'] else []) ++ Nat.toDigits 10 (c / 100) ++ '.' :: cents2 (c % 100)

/-- `'$'` and `strconv.AppendFloat(out, float64(v)/100.0, 'f', 2, 64)` (money.go:24-25,
moneyarr.go:38-39). -/
def moneyText (v : Int) : Bytes :=
  '$' :: fmtCents (decide (v < 0)) (toFloat (toFloat v.natAbs 1) (100 * unit))

/-- `moneyFromInt64.Value` (money.go:23-27). -/
def moneyValue (v : Int) : Bytes := moneyText v

/-- Reads digits, at most one decimal point, and no more: the digits as a number and how many of
them follow the point. -/
def readDigits (seen : Bool) (n k : Nat) : Bytes → Option (Nat × Nat)
  | [] => some (n, k)
  | c :: r =>
    if c = '.' then (if seen then none else readDigits true n k r)
    else if isDig 10 c then readDigits seen (n * 10 + (c.toNat - '0'.toNat)) (if seen then k + 1 else k) r
    else none

/-- `strconv.ParseFloat(s, 64)` for decimal numbers without exponent: the sign and the magnitude.
Everything else is an error here; exponents, hexadecimal numbers, infinities and NaN, which
ParseFloat accepts, are written by neither side. -/
def parseFloat (s : Bytes) : SR (Bool × Nat) :=
  let rest := if s.head? = some '-' ∨ s.head? = some '+' then s.tail else s
  if rest.any (isDig 10) then
    match readDigits false 0 0 rest with
    | some (n, k) => .ok (decide (s.head? = some '-'), toFloat n (10 ^ k))
    | none => .err .syntax
  else .err .syntax

/-- `int64(f64 * 100.0)`: rounded product, fraction dropped. (A number out of range gives the
least int64, as on amd64.) -/
def toCents (f : Bool × Nat) : Int :=
  let y := toFloat (f.2 * 100) unit / unit
  if y < 2 ^ 63 then (if f.1 then -(y : Int) else y) else -(2 ^ 63)

/-- Dropping the currency symbol, parsing, converting (money.go:41-47, moneyarr.go:63-69). -/
def moneyElem (data : Bytes) : SR Int :=
  match data with
  | [] => .panic
  | _ :: r => (parseFloat r).map toCents

/-- `moneyToInt64.Scan` (money.go:33-49). -/
def moneyScan : Int → Option Bytes → SR Int := scanKeep moneyElem

/-- `moneyArrayFromInt64Slice.Value` (moneyarr.go:23-45). -/
def moneyArrValue : Option (List Int) → Option Bytes := arrValue moneyText

/-- `moneyArrayToInt64Slice.Scan` (moneyarr.go:51-74). -/
def moneyArrScan : Option (List Int) → Option Bytes → SR (Option (List Int)) :=
  scanReset fun b => (ofParse (parseCommaArray b)).bind (mapRes moneyElem)

end Verif.Pgsql
