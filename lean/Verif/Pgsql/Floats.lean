import Verif.Pgsql.Money
import Verif.Pgsql.SpecFloat
/-
Model of float4arr.go, float8arr.go and of the conversions of numericarr.go from and to floats
(numericarr.go:621-725), with the functions `strconv.AppendFloat(_, x, 'f', -1, bits)` and
`strconv.ParseFloat(s, bits)` they call.

Formats and values are those of `SpecFloat`: a float32 is given by the float64 it is converted to.
-/
namespace Verif.Pgsql

open Verif Verif.PgServer

/-! ### strconv -/

/-- The exponent of the last bit of the number of the format nearest to a number with the whole
part `x`. -/
def last (f : FFmt) (x : Nat) : Nat := max f.low (Nat.log2 x + 1 - f.prec)

/-- The magnitude nearest to `n / d`, ties to even. -/
def round (f : FFmt) (n d : Nat) : Nat :=
  roundEven (n * unit) (d * 2 ^ last f (n * unit / d)) * 2 ^ last f (n * unit / d)

/-- 5^1074 and 10^1074: all magnitudes are whole numbers of units of 10^-1074 too. -/
def fives : Nat := 5 ^ 1074

@[inherit_doc fives]
def tens : Nat := 10 ^ 1074

/-- Whether the decimal `q * 10^p` (in units of 10^-1074) is read as the magnitude `x`. -/
def readsBack (f : FFmt) (x p q : Nat) : Bool := round f (q * 10 ^ p) tens = x

/-- The fewest digits that are read as the magnitude `x`, as `q * 10^p`: tried from left to right,
one digit more each time, the nearest multiples of the power of ten below and above. -/
def shortest (f : FFmt) (x : Nat) : Nat → Nat × Nat
  | 0 => (x * fives, 0)
  | p + 1 =>
    let q := x * fives / 10 ^ (p + 1)
    let below := readsBack f x (p + 1) q
    let above := readsBack f x (p + 1) (q + 1)
    if below && (!above || decide (2 * (x * fives % 10 ^ (p + 1)) ≤ 10 ^ (p + 1))) then (q, p + 1)
    else if above then (q + 1, p + 1)
    else shortest f x p

/-- `k` decimal digits. -/
def digitsN : Nat → Nat → Bytes
  | 0, _ => []
  | k + 1, n => digitsN k (n / 10) ++ [Nat.digitChar (n % 10)]

/-- The text of `q * 10^p` (in units of 10^-1074) without exponent. -/
def plainText (q p : Nat) : Bytes :=
  if 1074 ≤ p then Nat.toDigits 10 (q * 10 ^ (p - 1074))
  else Nat.toDigits 10 (q / 10 ^ (1074 - p)) ++ '.' :: digitsN (1074 - p) (q % 10 ^ (1074 - p))

/-- The place of the first digit that is tried: the number is less than this power of ten (there
are more than 93 / 28 bits in a decimal digit). -/
def firstDigit (x : Nat) : Nat := (Nat.log2 (x * fives) + 1) * 28 / 93 + 1

/-- The digits of a magnitude; zero has none. -/
def magDigits (f : FFmt) (x : Nat) : Nat × Nat :=
  if x = 0 then (0, 1074) else shortest f x (firstDigit x)

/-- `strconv.AppendFloat(nil, v, 'f', -1, bits)`. -/
def fmtFloat (f : FFmt) : Fl → Bytes
  | .nan => b!"NaN"
  | .inf false => b!"+Inf"
  | .inf true => b!"-Inf"
  | .fin neg x =>
    (if neg then ['-'] else []) ++ plainText (magDigits f x).1 (magDigits f x).2

/-- Digits and at most one point: the digits as a number, how many follow the point, and what is
left of the text; nothing if there is no digit. -/
def mantissa (seen any : Bool) (n k : Nat) : Bytes → Option (Nat × Nat × Bytes)
  | [] => if any then some (n, k, []) else none
  | c :: r =>
    if c = '.' ∧ seen = false then mantissa true any n k r
    else if isDig 10 c then
      mantissa seen true (n * 10 + (c.toNat - '0'.toNat)) (if seen then k + 1 else k) r
    else if any then some (n, k, c :: r) else none

/-- The digits of an exponent; those of a very large one are skipped. -/
def expLoop (e : Nat) : Bytes → Option Nat
  | [] => some e
  | c :: r =>
    if isDig 10 c then expLoop (if e < 10000 then e * 10 + (c.toNat - '0'.toNat) else e) r else none

/-- At least one digit. -/
def expDigits (s : Bytes) : Option Nat := if s.length = 0 then none else expLoop 0 s

/-- An exponent, as the powers of ten to multiply with and to divide by; nothing else may follow. -/
def exponent (s : Bytes) : Option (Nat × Nat) :=
  match s with
  | [] => some (0, 0)
  | c :: r =>
    if c = 'e' ∨ c = 'E' then
      if r.head? = some '-' then (expDigits r.tail).map fun e => (0, e)
      else if r.head? = some '+' then (expDigits r.tail).map fun e => (e, 0)
      else (expDigits r).map fun e => (e, 0)
    else none

/-- A decimal number without sign, as a quotient. -/
def readDec (s : Bytes) : Option (Nat × Nat) :=
  (mantissa false false 0 0 s).bind fun m =>
    (exponent m.2.2).map fun e => (m.1 * 10 ^ e.1, 10 ^ (m.2.1 + e.2))

/-- `special` of package strconv: the names of the infinities and of NaN, in any case. -/
def specialFloat (s : Bytes) : Option Fl :=
  if s.map Char.toLower = b!"nan" then some .nan
  else
    let r := if s.head? = some '-' ∨ s.head? = some '+' then s.tail else s
    if r.map Char.toLower = b!"inf" ∨ r.map Char.toLower = b!"infinity" then
      some (.inf (decide (s.head? = some '-')))
    else none

/-- `strconv.ParseFloat(s, bits)`. Hexadecimal numbers and underscores between digits, which
ParseFloat accepts, are not modelled (they are a syntax error here); no server writes them. -/
def parseFl (f : FFmt) (s : Bytes) : SR Fl :=
  match specialFloat s with
  | some v => .ok v
  | none =>
    match readDec (if s.head? = some '-' ∨ s.head? = some '+' then s.tail else s) with
    | none => .err .syntax
    | some (n, d) =>
      if round f n d < f.limit then .ok (.fin (decide (s.head? = some '-')) (round f n d))
      else .err .range

/-! ### Arrays -/

/-- The `Scan` methods: `pgParseCommaArray`, then `ParseFloat` for every element. -/
def floatsScan (f : FFmt) : Option (List Fl) → Option Bytes → SR (Option (List Fl)) :=
  scanReset fun b => (ofParse (parseCommaArray b)).bind (mapRes (parseFl f))

/-- `float4ArrayFromFloat32Slice.Value` (float4arr.go:33-49). -/
def float4FromFloat32 : Option (List Fl) → Option Bytes := arrValue (fmtFloat single)

/-- `float4ArrayToFloat32Slice.Scan` (float4arr.go:55-76). -/
def float4ToFloat32 : Option (List Fl) → Option Bytes → SR (Option (List Fl)) := floatsScan single

/-- `float4ArrayFromFloat64Slice.Value` (float4arr.go:82-98). -/
def float4FromFloat64 : Option (List Fl) → Option Bytes := arrValue (fmtFloat double)

/-- `float4ArrayToFloat64Slice.Scan` (float4arr.go:104-125). -/
def float4ToFloat64 : Option (List Fl) → Option Bytes → SR (Option (List Fl)) := floatsScan double

/-- `float8ArrayFromFloat32Slice.Value` (float8arr.go:33-49). -/
def float8FromFloat32 : Option (List Fl) → Option Bytes := arrValue (fmtFloat double)

/-- `float8ArrayToFloat32Slice.Scan` (float8arr.go:55-76). -/
def float8ToFloat32 : Option (List Fl) → Option Bytes → SR (Option (List Fl)) := floatsScan single

/-- `float8ArrayFromFloat64Slice.Value` (float8arr.go:82-98). -/
def float8FromFloat64 : Option (List Fl) → Option Bytes := arrValue (fmtFloat double)

/-- `float8ArrayToFloat64Slice.Scan` (float8arr.go:104-125). -/
def float8ToFloat64 : Option (List Fl) → Option Bytes → SR (Option (List Fl)) := floatsScan double

/-- `numericArrayFromFloat32Slice.Value` (numericarr.go:625-641). -/
def numericFromFloat32 : Option (List Fl) → Option Bytes := arrValue (fmtFloat single)

/-- `numericArrayToFloat32Slice.Scan` (numericarr.go:647-668). -/
def numericToFloat32 : Option (List Fl) → Option Bytes → SR (Option (List Fl)) := floatsScan single

/-- `numericArrayFromFloat64Slice.Value` (numericarr.go:674-690). -/
def numericFromFloat64 : Option (List Fl) → Option Bytes := arrValue (fmtFloat double)

/-- `numericArrayToFloat64Slice.Scan` (numericarr.go:696-717). -/
def numericToFloat64 : Option (List Fl) → Option Bytes → SR (Option (List Fl)) := floatsScan double

end Verif.Pgsql
