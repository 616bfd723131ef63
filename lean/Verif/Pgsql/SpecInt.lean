import Verif.Pgsql.Spec
/-
What the PostgreSQL server does with integers, int2vector and integer ranges: input and output
functions (int2in/int4in/int8in, int2vectorin, range_in and range_out with the canonical functions
of int4range and int8range). White space, which the input functions skip, is left out, since neither
side of the codecs writes any (except between the numbers of an int2vector).
-/
namespace Verif.PgServer

open Verif

/-- The value of a decimal digit. -/
def digitVal (c : Char) : Option Nat :=
  if '0'.toNat ≤ c.toNat ∧ c.toNat ≤ '9'.toNat then some (c.toNat - '0'.toNat) else none

/-- The number written by the digits, after the digits with value `acc`. -/
def natIn (acc : Nat) : Bytes → Option Nat
  | [] => some acc
  | c :: r =>
    match digitVal c with
    | some d => natIn (acc * 10 + d) r
    | none => none

/-- At least one digit. -/
def digitsIn (s : Bytes) : Option Nat := if s.length = 0 then none else natIn 0 s

/-- The number in decimal with an optional sign. -/
def intIn : Bytes → Option Int
  | [] => none
  | c :: r =>
    if c = '-' then (digitsIn r).map fun n : Nat => -(n : Int)
    else if c = '+' then (digitsIn r).map fun n : Nat => (n : Int)
    else (digitsIn (c :: r)).map fun n : Nat => (n : Int)

/-- A number in decimal. -/
def intOut (v : Int) : Bytes := (toString v).toList

/-- Text split at every space. -/
def splitSpaces : Bytes → List Bytes
  | [] => [[]]
  | c :: r =>
    if c = ' ' then [] :: splitSpaces r
    else match splitSpaces r with
      | [] => [[c]]
      | w :: ws => (c :: w) :: ws

/-- Numbers in all the words that are not empty (int2vectorin skips runs of spaces). -/
def wordsIn : List Bytes → Option (List Int)
  | [] => some []
  | w :: ws =>
    if w.length = 0 then wordsIn ws
    else do
      let v ← intIn w
      let vs ← wordsIn ws
      return v :: vs

/-- An int2vector. -/
def vectorIn (s : Bytes) : Option (List Int) := wordsIn (splitSpaces s)

def vectorOut (xs : List Int) : Bytes := joinWith b!" " (xs.map intOut)

/-- A discrete range in canonical form: the lower bound inclusive, the upper bound exclusive, `none`
for unbounded. -/
inductive Rng where
  | empty
  | span (lo hi : Option Int)
deriving Repr, DecidableEq

/-- A bound, absent if the text is empty. -/
def boundIn (s : Bytes) : Option (Option Int) := if s.length = 0 then some none else (intIn s).map some

/-- The canonical form of a range; it is an error for the lower bound to exceed the upper one. -/
def canon (loInc hiInc : Bool) (lo hi : Option Int) : Option Rng :=
  let bad := match lo, hi with
    | some a, some b => decide (b < a)
    | _, _ => false
  if bad then none
  else
    let lo := lo.map fun a => if loInc then a else a + 1
    let hi := hi.map fun b => if hiInc then b + 1 else b
    match lo, hi with
    | some a, some b => if b ≤ a then some .empty else some (.span (some a) (some b))
    | _, _ => some (.span lo hi)

/-- Input of a discrete range. -/
def rangeIn (s : Bytes) : Option Rng :=
  if s = b!"empty" then some .empty
  else
    match s with
    | [] => none
    | c :: r =>
      let l := r.getLast?
      if (c = '[' ∨ c = '(') ∧ (l = some ']' ∨ l = some ')') then do
        let body := r.dropLast
        let lo ← boundIn (body.takeWhile (· ≠ ','))
        match body.dropWhile (· ≠ ',') with
        | [] => none
        | _ :: t => do
          let hi ← boundIn t
          canon (c = '[') (l = some ']') lo hi
      else none

/-- Output of a range in canonical form. -/
def rangeOut : Rng → Bytes
  | .empty => b!"empty"
  | .span lo hi =>
    (match lo with | some a => '[' :: intOut a | none => ['(']) ++ [','] ++
      (match hi with | some b => intOut b | none => []) ++ [')']

end Verif.PgServer
