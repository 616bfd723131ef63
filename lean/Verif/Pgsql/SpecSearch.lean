import Verif.Pgsql.Spec
/-
PostgreSQL's side of text search types: the text of a tsvector (tsvectorout in tsvector.c of
PostgreSQL).  Written from the documentation, section 8.11.1; nothing here is a model of code
in /repo.
-/
namespace Verif.PgServer

open Verif

/-- The weight of a position. -/
inductive Weight where
  | a | b | c | d
deriving Repr, DecidableEq

/-- The label of a weight; the default weight D is not shown. -/
def Weight.out : Weight → Bytes
  | .a => b!"A"
  | .b => b!"B"
  | .c => b!"C"
  | .d => []

/-- A lexeme of a tsvector with its positions. -/
structure Lexeme where
  word : Bytes
  positions : List (Nat × Weight)
deriving Repr, DecidableEq

/-- The text of a lexeme: quotes and backslashes of the word are doubled, the positions follow a
colon. -/
def Lexeme.out (e : Lexeme) : Bytes :=
  '\'' :: e.word.flatMap (fun c => if c = '\'' ∨ c = '\\' then [c, c] else [c]) ++ ['\''] ++
    (if e.positions.length = 0 then []
     else ':' :: joinWith b!"," (e.positions.map fun p => Nat.toDigits 10 p.1 ++ p.2.out))

/-- The text of a tsvector. -/
def tsvectorOut (es : List Lexeme) : Bytes := joinWith b!" " (es.map Lexeme.out)

example : tsvectorOut [⟨b!"cat", [(3, .d), (7, .a)]⟩, ⟨b!"it's", []⟩] = b!"'cat':3,7A 'it''s'" := by
  decide +kernel

end Verif.PgServer
