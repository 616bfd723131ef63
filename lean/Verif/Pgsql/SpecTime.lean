import Verif.Pgsql.SpecInt
/-
What the PostgreSQL server does with dates and times: the ISO output format (DateStyle ISO, the default; section
8.5.2 of the documentation), and input in that format (8.5.1).  Other input formats are left out, and fractions
with more than six digits, which the server rounds.
-/
namespace Verif.PgServer

open Verif

/-- A number with at least `w` digits. -/
def num (w n : Nat) : Bytes := List.replicate (w - (Nat.toDigits 10 n).length) '0' ++ Nat.toDigits 10 n

structure Date where
  /-- 0 is 1 BC -/
  year : Int
  month : Nat
  day : Nat
deriving Repr, DecidableEq

structure Clock where
  hour : Nat
  minute : Nat
  second : Nat
  micro : Nat := 0
deriving Repr, DecidableEq

def leapYear (y : Int) : Bool := if y % 100 = 0 then y % 400 = 0 else y % 4 = 0

def monthLength (y : Int) (m : Nat) : Nat :=
  [0, 31, if leapYear y then 29 else 28, 31, 30, 31, 30, 31, 31, 30, 31, 30, 31].getD m 0

structure Date.Valid (d : Date) : Prop where
  month : 1 ≤ d.month ∧ d.month ≤ 12
  day : 1 ≤ d.day ∧ d.day ≤ monthLength d.year d.month

/-- 24:00:00 is a valid time. -/
structure Clock.Valid (c : Clock) : Prop where
  hour : c.hour < 24 ∨ c = { hour := 24, minute := 0, second := 0 }
  minute : c.minute < 60
  second : c.second < 60
  micro : c.micro < 1000000

/-! ### Output -/

def yearOut (y : Int) : Bytes := num 4 (if 0 < y then y else 1 - y).toNat

def dateBody (d : Date) : Bytes := yearOut d.year ++ b!"-" ++ num 2 d.month ++ b!"-" ++ num 2 d.day

def bcOut (y : Int) : Bytes := if 0 < y then [] else b!" BC"

/-- The fraction without the zeros at the end. -/
def fracOut (us : Nat) : Bytes :=
  let ds := ((num 6 us).reverse.dropWhile (· = '0')).reverse
  if ds.length = 0 then [] else b!"." ++ ds

def clockOut (c : Clock) : Bytes :=
  num 2 c.hour ++ b!":" ++ num 2 c.minute ++ b!":" ++ num 2 c.second ++ fracOut c.micro

/-- An offset in seconds: minutes and seconds only if needed. -/
def zoneOut (o : Int) : Bytes :=
  let a := o.natAbs
  [if o < 0 then '-' else '+'] ++ num 2 (a / 3600) ++
    (if a % 3600 = 0 then [] else b!":" ++ num 2 (a / 60 % 60)) ++
    (if a % 60 = 0 then [] else b!":" ++ num 2 (a % 60))

/-- Dates and timestamps can be infinite. -/
inductive Ext (α : Type) where
  | fin (a : α)
  | inf
  | negInf
deriving Repr, DecidableEq

def extOut {α : Type} (f : α → Bytes) : Ext α → Bytes
  | .fin a => f a
  | .inf => b!"infinity"
  | .negInf => b!"-infinity"

def dateOut (d : Date) : Bytes := dateBody d ++ bcOut d.year

def timestampOut (d : Date) (c : Clock) : Bytes := dateBody d ++ b!" " ++ clockOut c ++ bcOut d.year

/-- With the offset of the session's time zone at that time. -/
def timestamptzOut (d : Date) (c : Clock) (o : Int) : Bytes :=
  dateBody d ++ b!" " ++ clockOut c ++ zoneOut o ++ bcOut d.year

def timetzOut (c : Clock) (o : Int) : Bytes := clockOut c ++ zoneOut o

/-! ### Input -/

/-- Text split at every `sep`. -/
def splitAt (sep : Char) : Bytes → List Bytes
  | [] => [[]]
  | c :: r =>
    if c = sep then [] :: splitAt sep r
    else match splitAt sep r with
      | [] => [[c]]
      | w :: ws => (c :: w) :: ws

/-- One or two digits. -/
def shortIn (s : Bytes) : Option Nat := if s.length ≤ 2 then digitsIn s else none

/-- `year-month-day`; the year has four digits or more and is not 0. -/
def dateIn (s : Bytes) : Option Date :=
  match splitAt '-' s with
  | [y, m, d] =>
    match digitsIn y, shortIn m, shortIn d with
    | some y', some m', some d' =>
      if 4 ≤ y.length ∧ 1 ≤ y' ∧ y' ≤ 294276 ∧ 1 ≤ m' ∧ m' ≤ 12 ∧ 1 ≤ d' ∧ d' ≤ monthLength y' m' then
        some { year := y', month := m', day := d' }
      else none
    | _, _, _ => none
  | _ => none

/-- Digits after the point, in millionths. -/
def fracIn (s : Bytes) : Option Nat :=
  if s.length ≤ 6 then (digitsIn s).map (· * 10 ^ (6 - s.length)) else none

/-- Seconds with an optional fraction. -/
def secondsIn (s : Bytes) : Option (Nat × Nat) :=
  match splitAt '.' s with
  | [w] => (shortIn w).map (·, 0)
  | [w, f] =>
    match shortIn w, fracIn f with
    | some n, some us => some (n, us)
    | _, _ => none
  | _ => none

/-- `hours:minutes:seconds`. -/
def clockIn (s : Bytes) : Option Clock :=
  match splitAt ':' s with
  | [h, m, x] =>
    match shortIn h, shortIn m, secondsIn x with
    | some h', some m', some (s', us) =>
      if h' < 24 ∧ m' < 60 ∧ s' < 60 then some { hour := h', minute := m', second := s', micro := us }
      else none
    | _, _, _ => none
  | _ => none

/-- The hours, and minutes if present, of an offset. -/
def zoneSpan (r : Bytes) : Option Nat :=
  match splitAt ':' r with
  | [h] => (shortIn h).map (· * 3600)
  | [h, m] =>
    match shortIn h, shortIn m with
    | some h', some m' => if m' < 60 then some (h' * 3600 + m' * 60) else none
    | _, _ => none
  | _ => none

/-- An offset with its sign, less than 16 hours; seconds are left out. -/
def zoneIn : Bytes → Option Int
  | [] => none
  | c :: r =>
    match zoneSpan r with
    | some n =>
      if 16 * 3600 ≤ n then none
      else if c = '+' then some (n : Int)
      else if c = '-' then some (-(n : Int))
      else none
    | none => none

def isSign (c : Char) : Bool := c = '+' || c = '-'

def timetzIn (s : Bytes) : Option (Clock × Int) :=
  match clockIn (s.takeWhile (fun c => !isSign c)), zoneIn (s.dropWhile (fun c => !isSign c)) with
  | some c, some o => some (c, o)
  | _, _ => none

def timestampIn (s : Bytes) : Option (Date × Clock) :=
  match splitAt ' ' s with
  | [d, t] =>
    match dateIn d, clockIn t with
    | some d', some c => some (d', c)
    | _, _ => none
  | _ => none

/-- The value is the instant that the date, the time and the offset denote. -/
def timestamptzIn (s : Bytes) : Option (Date × Clock × Int) :=
  match splitAt ' ' s with
  | [d, t] =>
    match dateIn d, timetzIn t with
    | some d', some (c, o) => some (d', c, o)
    | _, _ => none
  | _ => none

/-! ### Ranges -/

/-- A range: the texts of its bounds, and whether they belong to the range. -/
inductive TextRange where
  | empty
  | span (lo hi : Option (Bytes × Bool))
deriving Repr, DecidableEq

/-- Bounds with special characters are written in quotes (range_bound_escape). -/
def boundOut (s : Bytes) : Bytes :=
  if s.isEmpty || s.any (fun c => isSpace c || c = '"' || c = '\\' || c = '(' || c = ')' || c = '[' || c = ']' || c = ',')
  then '"' :: s.flatMap (fun c => if c = '"' ∨ c = '\\' then [c, c] else [c]) ++ ['"']
  else s

/-- Range output (range_deparse). -/
def textRangeOut : TextRange → Bytes
  | .empty => b!"empty"
  | .span lo hi =>
    (match lo with
      | some (s, inc) => (if inc then '[' else '(') :: boundOut s
      | none => ['(']) ++ [','] ++
    (match hi with
      | some (s, inc) => boundOut s ++ [if inc then ']' else ')']
      | none => [')'])

/-- A bound; quotes and backslashes inside a bound are left out. -/
def textBoundIn (inc : Bool) (s : Bytes) : Option (Bytes × Bool) :=
  if s.length = 0 then none
  else if 2 ≤ s.length ∧ s.head? = some '"' ∧ s.getLast? = some '"' then some (s.tail.dropLast, inc)
  else some (s, inc)

/-- Range input for bounds without commas. The input of the bounds and the check of their order come after. -/
def textRangeIn (s : Bytes) : Option TextRange :=
  if s = b!"empty" then some .empty
  else
    match s with
    | [] => none
    | c :: r =>
      let l := r.getLast?
      if (c = '[' ∨ c = '(') ∧ (l = some ']' ∨ l = some ')') then
        match splitAt ',' r.dropLast with
        | [lo, hi] => some (.span (textBoundIn (c = '[') lo) (textBoundIn (l = some ']') hi))
        | _ => none
      else none

end Verif.PgServer
