import Verif.Filter.Model
/-
Specification vocabulary for the filter properties C01-C11.

Nothing here refers to the node list, the writer or the Constructor state: predicates are
described by what the caller asked for, SQL text by templates with holes.
-/
namespace Verif.Filter

open Verif

/-! ### Predicates and their SQL form -/

/-- What a predicate compares its column with. -/
inductive Form (α : Type) where
  | cmp (op : Bytes) (v : Val α)            -- `col op $n`
  | is (what : Bytes)                        -- `col IS NULL`, ...
  | isIn (xs : List α)                       -- `col IN ($n,...)`
  | anyOf (k : SliceKind) (xs : List α)      -- `col = ANY($n::t[])`
  | search (s : Bytes)                       -- `col @@ to_tsquery('simple', $n)`
deriving Repr, DecidableEq

/-- A predicate of the WHERE clause. -/
structure Pred (α : Type) where
  column : Bytes
  form : Form α
deriving Repr, DecidableEq

/-- Template piece: literal SQL text, or a hole to be filled by a placeholder for a value. -/
inductive Piece (α : Type) where
  | lit (s : Bytes)
  | hole (v : Param α)
deriving Repr, DecidableEq

/-- `v1 , v2 , ...` -/
def commaHoles {α} : List α → List (Piece α)
  | [] => []
  | [a] => [.hole (.elem a)]
  | a :: b :: r => .hole (.elem a) :: .lit b!"," :: commaHoles (b :: r)

/-- The array type PostgreSQL has for each Go slice type. -/
def arrayTypeName : SliceKind → Bytes
  | .int64 => b!"int8[]"
  | .int => b!"int4[]"
  | .int16 => b!"int2[]"
  | .string => b!"text[]"

/-- The space separated, non-empty terms of a search text. -/
def terms (s : Bytes) : List Bytes := (split ' ' (trimSpace s)).filter (· ≠ [])

/-- The ts_query for a search text: every term prefix-matched, all of them required. -/
def tsQuery (s : Bytes) : Bytes := (b!" & ").intercalate ((terms s).map (· ++ b!":*"))

def Pred.pieces {α} (p : Pred α) : List (Piece α) :=
  match p.form with
  | .cmp op v => [.lit (p.column ++ b!" " ++ op ++ b!" "), .hole (.val v)]
  | .is w => [.lit (p.column ++ b!" " ++ w)]
  | .isIn xs => .lit (p.column ++ b!" IN (") :: (commaHoles xs ++ [.lit b!")"])
  | .anyOf k xs =>
    [.lit (p.column ++ b!" = ANY("), .hole (.arr k xs), .lit (b!"::" ++ arrayTypeName k ++ b!")")]
  | .search s =>
    [.lit (p.column ++ b!" @@ to_tsquery('simple', "), .hole (.text (tsQuery s)), .lit b!")"]

/-- A WHERE clause is a sequence of predicates, connectives and parentheses. -/
inductive Seg (α : Type) where
  | pred (p : Pred α)
  | and
  | or
  | opn
  | cls
deriving Repr, DecidableEq

def Seg.pieces {α} : Seg α → List (Piece α)
  | .pred p => p.pieces
  | .and => [.lit b!" AND "]
  | .or => [.lit b!" OR "]
  | .opn => [.lit b!"("]
  | .cls => [.lit b!")"]

/-- The predicates of a clause, left to right. -/
def preds {α} : List (Seg α) → List (Pred α)
  | [] => []
  | .pred p :: ss => p :: preds ss
  | _ :: ss => preds ss

/-- Values for the holes, left to right. -/
def holes {α} : List (Piece α) → List (Param α)
  | [] => []
  | .lit _ :: ps => holes ps
  | .hole v :: ps => v :: holes ps

/-- The text of a template when `pos` parameters precede it: the holes become
`$pos+1`, `$pos+2`, ... -/
def render {α} : List (Piece α) → Nat → Bytes
  | [], _ => []
  | .lit s :: ps, pos => s ++ render ps pos
  | .hole _ :: ps, pos => b!"$" ++ Nat.toDigits 10 (pos + 1) ++ render ps (pos + 1)

/-- Template of the WHERE clause: nothing when there is no condition. -/
def wherePieces {α} (segs : List (Seg α)) : List (Piece α) :=
  if segs = [] then [] else .lit b!" WHERE " :: segs.flatMap Seg.pieces

/-! ### The placeholders occurring in an SQL text -/

/-- The ordinal placeholders `$n` occurring in a text, left to right. -/
def placeholders : Bytes → List Nat
  | [] => []
  | c :: cs =>
    if c = '$' ∧ (cs.takeWhile Char.isDigit) ≠ [] then
      Nat.ofDigitChars 10 (cs.takeWhile Char.isDigit) 0 :: placeholders cs
    else placeholders cs

/-! ### What the caller asked for -/

/-- The predicate requested by `Col(column, op, value)`, if any. `ANY`/`IN` take one of the four
slice types; nil and booleans can be compared with `=` and `<>`. -/
def colPred {α} (column op : Bytes) (v : Val α) : Option (Pred α) :=
  if Cons.toUpper op = b!"ANY" then
    match v with
    | .slice k xs => some ⟨column, .anyOf k xs⟩
    | _ => none
  else if Cons.toUpper op = b!"IN" then
    match v with
    | .slice _ xs => some ⟨column, .isIn xs⟩
    | _ => none
  else match v with
    | .nil =>
      if op = b!"=" then some ⟨column, .is b!"IS NULL"⟩
      else if op = b!"<>" then some ⟨column, .is b!"IS NOT NULL"⟩ else none
    | .bool b =>
      if op = b!"=" then some ⟨column, .is (b!"IS " ++ if b then b!"TRUE" else b!"FALSE")⟩
      else if op = b!"<>" then some ⟨column, .is (b!"IS NOT " ++ if b then b!"TRUE" else b!"FALSE")⟩
      else none
    | v => some ⟨column, .cmp op v⟩

/-- The SQL spelling of each FQL comparison. -/
def Cmp.sql : Cmp → Bytes
  | .eq => b!"="
  | .ne => b!"<>"
  | .lt => b!"<"
  | .le => b!"<="
  | .gt => b!">"
  | .ge => b!">="

/-- The column a public key stands for. -/
def columnFor {α} (colmap : List (Bytes × Column α)) (key : Bytes) : Option (Column α) :=
  (colmap.find? (fun e => e.1 = key)).map (·.2)

/-- The predicates requested by an FQL token stream: its rules with a mapped key, up to the
first rule that is an error (unknown key in strict mode, or failing conversion). -/
def fqlPreds {α} (colmap : List (Bytes × Column α)) (strict : Bool) : List (Tok α) → List (Pred α)
  | [] => []
  | .rule key cmp val :: ts =>
    match columnFor colmap key with
    | none => if strict then [] else fqlPreds colmap strict ts
    | some cl =>
      match cl.convert with
      | none => (colPred cl.name (Cmp.sql cmp) (val.getD .nil)).toList ++ fqlPreds colmap strict ts
      | some f =>
        match f (val.getD .nil) with
        | .error _ => []
        | .ok v => (colPred cl.name (Cmp.sql cmp) v).toList ++ fqlPreds colmap strict ts
  | _ :: ts => fqlPreds colmap strict ts

mutual
/-- Strict mode after a call, given strict mode before it. -/
def Call.strictAfter {α} : Call α → Bool → Bool
  | .strictSwitch, b => !b
  | .andNest n, b => strictAfter n b
  | .orNest n, b => strictAfter n b
  | _, b => b
def strictAfter {α} : List (Call α) → Bool → Bool
  | [], b => b
  | x :: xs, b => strictAfter xs (x.strictAfter b)
end

mutual
/-- The predicates requested by a call, in the order requested. -/
def Call.requested {α} (colmap : List (Bytes × Column α)) (tscol : Bytes) :
    Call α → Bool → List (Pred α)
  | .col column op v, _ => (colPred column op v).toList
  | .colIn column xs, _ => [⟨column, .isIn xs⟩]
  | .colAny column k xs, _ => [⟨column, .anyOf k xs⟩]
  | .textSearch s, _ => if tscol = [] then [] else [⟨tscol, .search s⟩]
  | .andNest n, b => requested colmap tscol n b
  | .orNest n, b => requested colmap tscol n b
  | .unmarshalFQL ts _, b => fqlPreds colmap b ts
  | .and, _ => []
  | .or, _ => []
  | .orderBy .., _ => []
  | .orderByV2 .., _ => []
  | .limit _, _ => []
  | .offset _, _ => []
  | .page _, _ => []
  | .strictSwitch, _ => []
  | .unmarshalSort _, _ => []
/-- The predicates requested by a sequence of calls. -/
def requested {α} (colmap : List (Bytes × Column α)) (tscol : Bytes) :
    List (Call α) → Bool → List (Pred α)
  | [], _ => []
  | x :: xs, b => x.requested colmap tscol b ++ requested colmap tscol xs (x.strictAfter b)
end

/-! ### Boolean expressions (C04, C10) and parentheses (C03) -/

/-- Grammar of boolean expressions: predicates and parenthesised expressions, separated by
exactly one connective each. -/
inductive BoolExpr {α : Type} : List (Seg α) → Prop
  | pred (p) : BoolExpr [.pred p]
  | paren {e} : BoolExpr e → BoolExpr (.opn :: e ++ [.cls])
  | and {a b} : BoolExpr a → BoolExpr b → BoolExpr (a ++ .and :: b)
  | or {a b} : BoolExpr a → BoolExpr b → BoolExpr (a ++ .or :: b)

/-- Properly nested parentheses. -/
inductive Nested {α : Type} : List (Seg α) → Prop
  | nil : Nested []
  | paren {e} : Nested e → Nested (.opn :: e ++ [.cls])
  | append {a b} : Nested a → Nested b → Nested (a ++ b)
  | pred (p) : Nested [.pred p]
  | and : Nested [.and]
  | or : Nested [.or]

/-! ### ORDER BY, LIMIT, OFFSET -/

/-- One item of the ORDER BY clause. `nulls`: `none` = no NULLS clause, `some true` = FIRST. -/
structure OrderItem where
  column : Bytes
  desc : Bool
  nulls : Option Bool
deriving Repr, DecidableEq

def OrderItem.text (i : OrderItem) : Bytes :=
  i.column ++ (if i.desc then b!" DESC" else b!" ASC") ++
    (match i.nulls with
     | none => []
     | some true => b!" NULLS FIRST"
     | some false => b!" NULLS LAST")

/-- A comma separated key of a sort string: `-key` or `key`. -/
def sortKey (item : Bytes) : Bytes × Bool :=
  match item with
  | '-' :: k => (k, true)
  | k => (k, false)

/-- What a sort string asks for: the mapped keys in order; in strict mode up to the first
unknown key, which is the error. -/
def sortItems {α} (colmap : List (Bytes × Column α)) (strict : Bool) :
    List Bytes → List OrderItem × Option Err
  | [] => ([], none)
  | it :: its =>
    let (key, desc) := sortKey it
    if key = [] then sortItems colmap strict its
    else match columnFor colmap key with
      | some c =>
        let (r, e) := sortItems colmap strict its
        (⟨c.name, desc, if c.nullable then some false else none⟩ :: r, e)
      | none => if strict then ([], some (.unknownKey key)) else sortItems colmap strict its

mutual
/-- The ORDER BY items requested by a call. -/
def Call.ordering {α} (colmap : List (Bytes × Column α)) : Call α → Bool → List OrderItem
  | .orderBy c d nf, _ => [⟨c, d, some nf⟩]
  | .orderByV2 c d nl nf, _ => [⟨c, d, if nl then some nf else none⟩]
  | .unmarshalSort s, b => (sortItems colmap b (split ',' s)).1
  | .andNest n, b => ordering colmap n b
  | .orNest n, b => ordering colmap n b
  | .unmarshalFQL _ _, _ => []
  | .col .., _ => []
  | .colIn .., _ => []
  | .colAny .., _ => []
  | .textSearch _, _ => []
  | .and, _ => []
  | .or, _ => []
  | .limit _, _ => []
  | .offset _, _ => []
  | .page _, _ => []
  | .strictSwitch, _ => []
def ordering {α} (colmap : List (Bytes × Column α)) : List (Call α) → Bool → List OrderItem
  | [], _ => []
  | x :: xs, b => x.ordering colmap b ++ ordering colmap xs (x.strictAfter b)
end

def orderByText (items : List OrderItem) : Bytes :=
  if items = [] then [] else b!" ORDER BY " ++ (b!", ").intercalate (items.map OrderItem.text)

mutual
/-- All calls in the order they are made, those inside nesting callbacks included. -/
def Call.flat {α} : Call α → List (Call α)
  | .andNest n => flatCalls n
  | .orNest n => flatCalls n
  | x => [x]
def flatCalls {α} : List (Call α) → List (Call α)
  | [] => []
  | x :: xs => x.flat ++ flatCalls xs
end

/-- The last positive number of a list. -/
def lastPositive (ns : List Int64) : Option Int64 := (ns.filter (0 < ·)).getLast?

def limitArgs {α} (cs : List (Call α)) : List Int64 :=
  (flatCalls cs).filterMap fun | .limit n => some n | _ => none

def offsetArgs {α} (cs : List (Call α)) : List Int64 :=
  (flatCalls cs).filterMap fun | .offset n => some n | _ => none

/-- ` KEYWORD n`, or nothing. -/
def clause (kw : Bytes) : Option Int64 → Bytes
  | none => []
  | some n => kw ++ Nat.toDigits 10 n.toInt.toNat

end Verif.Filter

namespace Verif.Filter
open Verif

/-! ### FQL token streams (C03, C04, C10) -/

/-- The FQL streams unmarshalled by a call sequence, each with the strict mode in force. -/
def Call.fqlRunsAt {α} : Call α → Bool → List (Bool × List (Tok α))
  | .unmarshalFQL ts _, b => [(b, ts)]
  | _, _ => []

mutual
def Call.fqlRuns {α} : Call α → Bool → List (Bool × List (Tok α))
  | .andNest n, b => fqlRuns n b
  | .orNest n, b => fqlRuns n b
  | x, b => x.fqlRunsAt b
def fqlRuns {α} : List (Call α) → Bool → List (Bool × List (Tok α))
  | [], _ => []
  | x :: xs, b => x.fqlRuns b ++ fqlRuns xs (x.strictAfter b)
end

/-- No rule of the stream makes UnmarshalFQL fail. -/
def RulesRun {α} (colmap : List (Bytes × Column α)) (strict : Bool) (ts : List (Tok α)) : Prop :=
  ∀ key cmp val, Tok.rule key cmp val ∈ ts →
    match columnFor colmap key with
    | none => strict = false
    | some cl => ∀ f, cl.convert = some f → ∃ v, f (val.getD .nil) = .ok v

/-- The predicate a rule stands for: key mapped, value converted, comparison expressible. -/
def rulePred {α} (colmap : List (Bytes × Column α)) (key : Bytes) (cmp : Cmp)
    (val : Option (Val α)) : Option (Pred α) :=
  match columnFor colmap key with
  | none => none
  | some cl =>
    match cl.convert with
    | none => colPred cl.name (Cmp.sql cmp) (val.getD .nil)
    | some f =>
      match f (val.getD .nil) with
      | .error _ => none
      | .ok v => colPred cl.name (Cmp.sql cmp) v

/-- Token streams with properly nested parentheses. -/
inductive TokNested {α : Type} : List (Tok α) → Prop
  | nil : TokNested []
  | paren {e} : TokNested e → TokNested (.lparen :: e ++ [.rparen])
  | append {a b} : TokNested a → TokNested b → TokNested (a ++ b)
  | rule (k c v) : TokNested [.rule k c v]
  | and : TokNested [.and]
  | or : TokNested [.or]

/-- Grammatical token streams, and the clause they stand for. -/
inductive TokExpr {α : Type} (colmap : List (Bytes × Column α)) :
    List (Tok α) → List (Seg α) → Prop
  | rule {k c v p} : rulePred colmap k c v = some p → TokExpr colmap [.rule k c v] [.pred p]
  | paren {e s} : TokExpr colmap e s →
      TokExpr colmap (.lparen :: e ++ [.rparen]) (.opn :: s ++ [.cls])
  | and {a b s t} : TokExpr colmap a s → TokExpr colmap b t →
      TokExpr colmap (a ++ .and :: b) (s ++ .and :: t)
  | or {a b s t} : TokExpr colmap a s → TokExpr colmap b t →
      TokExpr colmap (a ++ .or :: b) (s ++ .or :: t)

/-! ### Usage rules of C04 -/

/-- The call adds a condition to the WHERE clause. -/
def Call.adds {α} (tscol : Bytes) : Call α → Prop
  | .col column op v => colPred column op v ≠ none
  | .colIn .. => True
  | .colAny .. => True
  | .textSearch _ => tscol ≠ []
  | .andNest _ => True
  | .orNest _ => True
  | .unmarshalFQL .. => True
  | _ => False

def Call.bare {α} : Call α → Prop
  | .and => True
  | .or => True
  | _ => False

mutual
/-- nil/bool only compared with = or <>; nested groups add something. -/
def Call.Proper {α} (tscol : Bytes) : Call α → Prop
  | .col _ op v =>
    (v = .nil ∨ ∃ b, v = .bool b) →
      op = b!"=" ∨ op = b!"<>" ∨ Cons.toUpper op = b!"ANY" ∨ Cons.toUpper op = b!"IN"
  | .andNest n => Proper tscol n ∧ ∃ y ∈ n, y.adds tscol
  | .orNest n => Proper tscol n ∧ ∃ y ∈ n, y.adds tscol
  | _ => True
/-- ... and every bare And/Or is followed by a condition in the same group. -/
def Proper {α} (tscol : Bytes) : List (Call α) → Prop
  | [] => True
  | x :: xs => x.Proper tscol ∧ (x.bare → ∃ y ∈ xs, y.adds tscol) ∧ Proper tscol xs
end

/-! ### Forgetting values (C02) -/

/-- What the SQL text may depend on: nil / true / false / other, and for IN the number of
elements. -/
def Val.shape {α} (op : Bytes) : Val α → Val Unit
  | .nil => .nil
  | .bool b => .bool b
  | .slice k xs =>
    if Cons.toUpper op = b!"ANY" then .slice k []
    else if Cons.toUpper op = b!"IN" then .slice .int (List.replicate xs.length ())
    else .other ()
  | .other _ => .other ()

def Tok.shape {α} : Tok α → Tok Unit
  | .lparen => .lparen
  | .rparen => .rparen
  | .and => .and
  | .or => .or
  | .rule k c v => .rule k c (some ((v.getD .nil).shape (Cmp.sql c)))

mutual
def Call.shape {α} : Call α → Call Unit
  | .col c op v => .col c op (v.shape op)
  | .colIn c xs => .colIn c (List.replicate xs.length ())
  | .colAny c k _ => .colAny c k []
  | .textSearch _ => .textSearch []
  | .and => .and
  | .or => .or
  | .andNest n => .andNest (shapes n)
  | .orNest n => .orNest (shapes n)
  | .orderBy c d nf => .orderBy c d nf
  | .orderByV2 c d nl nf => .orderByV2 c d nl nf
  | .limit n => .limit n
  | .offset n => .offset n
  | .page n => .page n
  | .strictSwitch => .strictSwitch
  | .unmarshalSort s => .unmarshalSort s
  | .unmarshalFQL ts fin => .unmarshalFQL (ts.map Tok.shape) fin
def shapes {α} : List (Call α) → List (Call Unit)
  | [] => []
  | x :: xs => x.shape :: shapes xs
end

/-- Value converters that do not leak values into the shape of the result. -/
def ConvertersOK {α} (colmap : List (Bytes × Column α)) : Prop :=
  ∀ kc ∈ colmap, ∀ f, kc.2.convert = some f → ∀ (c : Cmp) (v w : Val α),
    v.shape (Cmp.sql c) = w.shape (Cmp.sql c) →
    match f v, f w with
    | .ok v', .ok w' => v'.shape (Cmp.sql c) = w'.shape (Cmp.sql c)
    | .error _, .error _ => True
    | _, _ => False

/-- Literal texts in a predicate are free of `$`. -/
def Pred.noDollar {α} (p : Pred α) : Prop :=
  '$' ∉ p.column ∧ match p.form with
    | .cmp op _ => '$' ∉ op
    | .is w => '$' ∉ w
    | _ => True

/-- The SQL text and params of the filter built by a sequence of calls on a new Constructor
initialised with a column map and a text-search column. -/
def filterSQL {α} (colmap : List (Bytes × Column α)) (tscol : Bytes) (calls : List (Call α))
    (pos : Nat) : Option (Bytes × List (Param α)) :=
  (runCalls calls (Cons.initV2 {} colmap tscol)).filter.toSQL pos

/-- The same for the filter returned by CountFilter. -/
def countSQL {α} (colmap : List (Bytes × Column α)) (tscol : Bytes) (calls : List (Call α))
    (pos : Nat) : Option (Bytes × List (Param α)) :=
  (runCalls calls (Cons.initV2 {} colmap tscol)).filter.countSQL pos

end Verif.Filter
