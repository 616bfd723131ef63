import Verif.Filter.Model

/-
What the tests of package filter, /repo/filter/filter_test.go, do with a case. The cases themselves are in
`FilterCases`.
-/
namespace Verif.Conform.FilterTest
open Verif Verif.Filter

/-- The Go values that occur in the tests. A float is given by its literal, a time by its Unix seconds. -/
inductive V where
  | int (n : Int)
  | int64 (n : Int)
  | float64 (lit : Bytes)
  | time (sec : Int)
  | string (s : Bytes)
  | myString (s : Bytes)
deriving Repr, DecidableEq

/-- The values that end up in the parameter list: a value, `nil`, a `bool`, or a pgsql array around a slice. -/
inductive Arg where
  | v (a : V)
  | nil
  | bool (b : Bool)
  | array (k : SliceKind) (xs : List V)
  | slice (k : SliceKind) (xs : List V)
deriving Repr, DecidableEq

/-- What a parameter is as a Go value. -/
def argOf : Param V → Arg
  | .val .nil => .nil
  | .val (.bool b) => .bool b
  | .val (.slice k xs) => .slice k xs
  | .val (.other a) => .v a
  | .elem a => .v a
  | .arr k xs => .array k xs
  | .text s => .v (.string s)

/-- `convertToMyString` (/repo/filter/filter_test.go:21-26). -/
def convertToMyString : Val V → Except Bytes (Val V)
  | .other (.string s) => .ok (.other (.myString s))
  | v => .ok v

/-- `test_colmap` (/repo/filter/filter_test.go:28-39). -/
def colmap : List (Bytes × Column V) :=
  [(b!"a", { name := b!"col_a", nullable := true }),
   (b!"b", { name := b!"col_b" }),
   (b!"c", { name := b!"col_c" }),
   (b!"d", { name := b!"col_d" }),
   (b!"e", { name := b!"col_e", convert := some convertToMyString }),
   (b!"f", { name := b!"col_f" }),
   (b!"g", { name := b!"col_g" }),
   (b!"h", { name := b!"col_h" }),
   (b!"i", { name := b!"col_i" }),
   (b!"j", { name := b!"col_j" })]

/-- The constructor of every test (/repo/filter/filter_test.go:377). -/
def start : Cons V := { colmap := colmap, tscol := b!"t.\"tsvec\"", strict := true }

/-! The language FQL, as far as the tests use it. The tokenizer is an external package; what follows is a
specification of the tokens it delivers for the texts of the tests: `key:value` with an optional comparison
operator in front of the value, `;` for AND, `,` for OR, and parentheses. -/

/-- Everything up to the first character that ends a bare word. -/
def word : Bytes → Bytes × Bytes
  | [] => ([], [])
  | c :: cs =>
    if c = ';' || c = ',' || c = ')' || c = '(' || c = ':' then ([], c :: cs)
    else let (a, b) := word cs; (c :: a, b)

/-- A quoted string without escapes, after its opening quote. -/
def quoted : Bytes → Option (Bytes × Bytes)
  | [] => none
  | c :: cs => if c = '"' then some ([], cs) else (quoted cs).map fun (a, b) => (c :: a, b)

def digit (c : Char) : Option Nat := if '0' ≤ c && c ≤ '9' then some (c.toNat - '0'.toNat) else none

def natOf (s : Bytes) : Option Nat :=
  if s.length = 0 then none
  else s.foldl (fun r c => match r, digit c with
    | some n, some d => some (10 * n + d)
    | _, _ => none) (some 0)

def intOf : Bytes → Option Int
  | '-' :: s => (natOf s).map fun n => -(n : Int)
  | s => (natOf s).map fun n => (n : Int)

/-- The value of a bare word: a literal, a time `d<seconds>`, an integer, else a float. The result `some none`
is `fql.Null`. -/
def bare (w : Bytes) : Option (Option (Val V)) :=
  if w = b!"true" then some (some (.bool true))
  else if w = b!"false" then some (some (.bool false))
  else if w = b!"null" then some none
  else match w with
    | [] => none
    | 'd' :: s => (intOf s).map fun n => some (.other (.time n))
    | _ => match intOf w with
      | some n => some (some (.other (.int64 n)))
      | none => some (some (.other (.float64 w)))

/-- The comparison operator in front of a value. -/
def cmpOf : Bytes → Cmp × Bytes
  | '>' :: '=' :: s => (.ge, s)
  | '<' :: '=' :: s => (.le, s)
  | '>' :: s => (.gt, s)
  | '<' :: s => (.lt, s)
  | '!' :: s => (.ne, s)
  | s => (.eq, s)

def value : Bytes → Option (Option (Val V) × Bytes)
  | '"' :: s => (quoted s).map fun (a, r) => (some (.other (.string a)), r)
  | s =>
    let (w, r) := word s
    (bare w).map fun v => (v, r)

/-- The tokens of an FQL text. -/
def tokens : Nat → Bytes → Option (List (Tok V))
  | _, [] => some []
  | 0, _ => none
  | n + 1, '(' :: s => (tokens n s).map (.lparen :: ·)
  | n + 1, ')' :: s => (tokens n s).map (.rparen :: ·)
  | n + 1, ';' :: s => (tokens n s).map (.and :: ·)
  | n + 1, ',' :: s => (tokens n s).map (.or :: ·)
  | n + 1, s =>
    match word s with
    | (key, ':' :: s) =>
      let (op, s) := cmpOf s
      match value s with
      | some (v, r) => (tokens n r).map (.rule key op v :: ·)
      | none => none
    | _ => none

def fqlTokens (s : Bytes) : Option (List (Tok V)) := tokens (s.length + 1) s

/-- The statements of the `run` functions: a call, `c.UnmarshalFQL(s)` and `c.UnmarshalSort(s)` whose error
is returned, and `c.UnmarshalFQL(s)` whose error is dropped. -/
inductive Stmt where
  | call (c : Call V)
  | fql (s : Bytes)
  | fqlDrop (s : Bytes)
  | sort (s : Bytes)

/-- The end of the token stream: none of the texts has a syntax error, so a text which the specification does
not understand is marked as such. -/
def runFQL (c : Cons V) (s : Bytes) : Cons V × Option Err :=
  match fqlTokens s with
  | some ts => c.fqlLoop none ts
  | none => (c, some (.token b!"not understood"))

/-- A `run` function. -/
def run : Cons V → List Stmt → Cons V × Option Err
  | c, [] => (c, none)
  | c, .call x :: xs => run (x.run c) xs
  | c, .fqlDrop s :: xs => run (runFQL c s).1 xs
  | c, .fql s :: xs => match runFQL c s with
    | (c, none) => run c xs
    | (c, some e) => (c, some e)
  | c, .sort s :: xs => match c.unmarshalSort s with
    | (c, none) => run c xs
    | (c, some e) => (c, some e)

/-- The result of a test: the error, or the text and the parameters of `ToSQL`. -/
inductive Got where
  | err (e : Err)
  | panic
  | sql (s : Bytes) (ps : List Arg)
deriving Repr, DecidableEq

/-- The body of the test loop (/repo/filter/filter_test.go:376-389). -/
def result (pos : Nat) (b : List Stmt) : Got :=
  match run start b with
  | (_, some e) => .err e
  | (c, none) => match c.filter.toSQL pos with
    | none => .panic
    | some (s, ps) => .sql s (ps.map argOf)

structure Case where
  name : Bytes
  body : List Stmt
  pos : Nat := 0
  want : Got

def i64 (n : Int) : Arg := .v (.int64 n)
def int (n : Int) : Arg := .v (.int n)
def str (s : Bytes) : Arg := .v (.string s)

/-- `c.Col(column, op, n)` with an `int`. -/
def colI (column op : Bytes) (n : Int) : Call V := .col column op (.other (.int n))

end Verif.Conform.FilterTest
