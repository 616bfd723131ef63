import Verif.Pgsql.Spec
/-
PostgreSQL's type money with a currency symbol `$`, a decimal point and commas (lc_monetary `C`
or `en_US`): output and input of a number of cents (cash_out, cash_in in cash.c of PostgreSQL).
Nothing here is a model of code in /repo.
-/
namespace Verif.PgServer

open Verif

/-- Digits with a comma before every group of three. -/
def group3 : Bytes → Bytes
  | [] => []
  | c :: r => if r.length % 3 = 0 ∧ r.length > 0 then c :: ',' :: group3 r else c :: group3 r

/-- The text of an amount of money. -/
def cashOut (v : Int) : Bytes :=
  (if v < 0 then ['-'] else []) ++ '$' :: group3 (Nat.toDigits 10 (v.natAbs / 100)) ++
    ['.', Nat.digitChar (v.natAbs % 100 / 10), Nat.digitChar (v.natAbs % 10)]

/-- The whole part, in which commas are ignored, and the two digits after the point. -/
def cashDigits (n : Nat) : Bytes → Option Nat
  | ['.', a, b] =>
    if a.isDigit ∧ b.isDigit then some (n * 100 + (a.toNat - 48) * 10 + (b.toNat - 48)) else none
  | c :: r => if c = ',' then cashDigits n r
      else if c.isDigit then cashDigits (n * 10 + (c.toNat - 48)) r else none
  | [] => none

/-- The amount that a text with two decimals stands for; the minus may be on either side of the
currency symbol, which may be left out. -/
def cashIn : Bytes → Option Int
  | '$' :: '-' :: r => (cashDigits 0 r).map fun (n : Nat) => -(n : Int)
  | '-' :: '$' :: r => (cashDigits 0 r).map fun (n : Nat) => -(n : Int)
  | '-' :: r => (cashDigits 0 r).map fun (n : Nat) => -(n : Int)
  | '$' :: r => (cashDigits 0 r).map fun (n : Nat) => (n : Int)
  | r => (cashDigits 0 r).map fun (n : Nat) => (n : Int)

example : cashOut (-123456789) = b!"-$1,234,567.89" ∧ cashOut 5 = b!"$0.05" ∧
    cashIn b!"-$1,234,567.89" = some (-123456789) ∧ cashIn b!"$-1.50" = some (-150) := by
  decide +kernel

end Verif.PgServer
