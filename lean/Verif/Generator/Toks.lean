import Verif.Generator.SpecLex
import Verif.Generator.Print

/-
The tokens that the text of a statement is meant to consist of, and what is required of the texts in it.

This is the specification of C87; `f` is the text of a value given at run time, as in Print.lean.
-/
namespace Verif.Generator.Lex
open Verif.Analysis Verif.Postgres Print

section
variable {α : Type} (f : α → Bytes)

/-- A key word. -/
def kw (s : Bytes) : List Tok := [.word s]

/-- The lists with `,` between them. -/
def commaToks : List (List Tok) → List Tok
  | [] => []
  | [x] => x
  | x :: xs => x ++ .punct ',' :: commaToks xs

def parens (x : List Tok) : List Tok := .punct '(' :: x ++ [.punct ')']

/-- A qualifier, which is written without quotes. -/
def qualToks (q : Bytes) : List Tok := if q.length > 0 then [.word (lower q), .punct '.'] else []

def colToks (c : ColIdent) : List Tok := qualToks c.qualifier ++ [.name c.name]

def relToks (r : RelIdent) : List Tok :=
  qualToks r.qualifier ++ .name r.name ::
    (if r.alias.length > 0 then kw b!"as" ++ [.word (lower r.alias)] else [])

def quantToks : Quant → List Tok
  | .any => kw b!"any"
  | .some => kw b!"some"
  | .all => kw b!"all"

def valToks : VExpr α → List Tok
  | .default => kw b!"default"
  | .param a => lex (f a)
  | .col c => colToks c
  | .xcol n => [.word b!"x", .punct '.', .name n]
  | .lit s => lex s
  | .cast x t => valToks x ++ .cast :: lex t
  | .nullif x y => kw b!"nullif" ++ parens (valToks x ++ .punct ',' :: valToks y)
  | .coalesce x y => kw b!"coalesce" ++ parens (valToks x ++ .punct ',' :: valToks y)
  | .call fn x => [.word (lower fn)] ++ parens (valToks x)
  | .quantified q x => quantToks q ++ parens (valToks x)
  | .absent => []

def notToks (not : Bool) : List Tok := if not then kw b!"not" else []

def binToks : BinOp → List Tok
  | .eq => [.op b!"="]
  | .ne => [.op b!"<>"]
  | .ne2 => [.op b!"!="]
  | .lt => [.op b!"<"]
  | .gt => [.op b!">"]
  | .le => [.op b!"<="]
  | .ge => [.op b!">="]
  | .matches => [.op b!"~"]
  | .matchesCI => [.op b!"~*"]
  | .notMatches => [.op b!"!~"]
  | .notMatchesCI => [.op b!"!~*"]
  | .like n => notToks n ++ kw b!"like"
  | .ilike n => notToks n ++ kw b!"ilike"
  | .similar n => notToks n ++ kw b!"similar" ++ kw b!"to"
  | .distinct n => kw b!"is" ++ notToks n ++ kw b!"distinct" ++ kw b!"from"

def truthToks : Truth → List Tok
  | .unknown => kw b!"unknown"
  | .true => kw b!"true"
  | .false => kw b!"false"

def linkToks : Link → List Tok
  | .initial => []
  | .and => kw b!"and"
  | .or => kw b!"or"

mutual
def condToks : BExpr α → List Tok
  | .binary op l r => valToks f l ++ binToks op ++ valToks f r
  | .inList n x a => valToks f x ++ notToks n ++ kw b!"in" ++ parens (lex (f a))
  | .truth n t x => valToks f x ++ kw b!"is" ++ notToks n ++ truthToks t
  | .null n x => valToks f x ++ kw b!"is" ++ notToks n ++ kw b!"null"
  | .between x lo hi => valToks f x ++ kw b!"between" ++ valToks f lo ++ kw b!"and" ++ valToks f hi
  | .bare x => valToks f x
  | .group l => parens (condsToks l)
def condsToks : BList α → List Tok
  | .nil => []
  | .cons k x rest => linkToks k ++ condToks x ++ condsToks rest
end

def joinToks : Option JoinType → List Tok
  | none => []
  | some .cross => kw b!"cross"
  | some .inner => kw b!"inner"
  | some .left => kw b!"left"
  | some .right => kw b!"right"
  | some .full => kw b!"full"

def tableJoinToks (j : TableJoin α) : List Tok :=
  joinToks j.type ++ kw b!"join" ++ relToks j.rel ++
    (if isNil j.cond then [] else kw b!"on" ++ condsToks f j.cond)

def tableToks : TableExpr α → List Tok
  | .rel r => relToks r
  | .join j => tableJoinToks f j
  | .values => .punct '(' :: kw b!"values"

def limitToks : LimitVal α → Option (List Tok)
  | .none => none
  | .int n => some [.num (itoa n)]
  | .param a => some (lex (f a))

def orderToks (o : OrderBy) : List Tok :=
  colToks o.column ++ kw (if o.desc then b!"desc" else b!"asc") ++ kw b!"nulls" ++
    kw (if o.nullsFirst then b!"first" else b!"last")

def targetToks : ConflictTarget → List Tok
  | .index e p => parens (lex e) ++ (if p.length > 0 then kw b!"where" ++ lex p else [])
  | .constraint n => kw b!"on" ++ kw b!"constraint" ++ [.name n]

def setToks (n : Bytes) : List Tok :=
  [.name n, .op b!"=", .word b!"excluded", .punct '.', .name n]

def conflictToks (c : ConflictClause) : List Tok :=
  (match c.target with | none => [] | some t => targetToks t) ++
    (if c.update.length = 0 then kw b!"do" ++ kw b!"nothing"
     else kw b!"do" ++ kw b!"update" ++ kw b!"set" ++ commaToks (c.update.map setToks))

/-- A clause, if there is one. -/
def clauseToks (lead : List Tok) : Option (List Tok) → List Tok
  | none => []
  | some x => lead ++ x

def returningToks (r : List (VExpr α)) : List Tok :=
  if r.length = 0 then [] else kw b!"returning" ++ commaToks (r.map (valToks f))

def whereToks (w : Option (BList α)) : List Tok := clauseToks (kw b!"where") (w.map (condsToks f))

def namesToks (l : List Bytes) : List Tok := parens (commaToks (l.map fun n => [.name n]))

def overridingToks : Overriding → List Tok
  | .system => kw b!"system"
  | .user => kw b!"user"

def orderByToks (order : List OrderBy) : List Tok :=
  if order.length = 0 then [] else kw b!"order" ++ kw b!"by" ++ commaToks (order.map orderToks)

def selectTailToks (joins : List (TableJoin α)) (wher : Option (BList α)) (order : List OrderBy)
    (limit offset : LimitVal α) : List Tok :=
  joins.flatMap (tableJoinToks f) ++ whereToks f wher ++ orderByToks order ++
    clauseToks (kw b!"limit") (limitToks f limit) ++ clauseToks (kw b!"offset") (limitToks f offset)

def onConflictToks (c : Option ConflictClause) : List Tok :=
  clauseToks (kw b!"on" ++ kw b!"conflict") (c.map conflictToks)

def tablesToks (lead : Bytes) (l : List (TableExpr α)) : List Tok :=
  if l.length = 0 then [] else kw lead ++ l.flatMap (tableToks f)

def stmtToks : Stmt α → List Tok
  | .insert t cs o vs c r =>
    kw b!"insert" ++ kw b!"into" ++ relToks t ++ namesToks cs ++
      (match o with | none => [] | some o => kw b!"overriding" ++ overridingToks o ++ kw b!"value") ++
      kw b!"values" ++ (match vs with | none => [] | some vs => parens (commaToks (vs.map (valToks f)))) ++
      onConflictToks c ++ returningToks f r
  | .update t cs vs fr w r =>
    kw b!"update" ++ relToks t ++ kw b!"set" ++ namesToks cs ++ [.op b!"="] ++
      parens (commaToks (vs.map (valToks f))) ++ tablesToks f b!"from" fr ++ whereToks f w ++ returningToks f r
  | .select cs t js w o l k =>
    kw b!"select" ++ commaToks (cs.map (valToks f)) ++ kw b!"from" ++ relToks t ++ selectTailToks f js w o l k
  | .count t js w o k =>
    kw b!"select" ++ kw b!"count" ++ parens [.op b!"*"] ++ kw b!"from" ++ relToks t ++
      selectTailToks f js w o .none k
  | .exists_ n open_ t js w o l k =>
    kw b!"select" ++ notToks n ++ kw b!"exists" ++ .punct '(' :: kw b!"select" ++ [.num b!"1"] ++ kw b!"from" ++
      relToks t ++ selectTailToks f js w o l k ++ (if open_ then [] else [.punct ')'])
  | .delete t us w r =>
    kw b!"delete" ++ kw b!"from" ++ relToks t ++ tablesToks f b!"using" us ++ whereToks f w ++ returningToks f r

def tailToks : Tail α → List Tok
  | .none => []
  | .insert c r => onConflictToks c ++ returningToks f r
  | .update a w r =>
    (match a with | none => [] | some cs => .punct ')' :: kw b!"as" ++ kw b!"x" ++ namesToks cs) ++
      whereToks f w ++ returningToks f r

/-! ### What is required of the texts -/

/-- The names are identifiers. -/
def ColPlain (c : ColIdent) : Prop := OptIdent c.qualifier ∧ Ident c.name
def RelPlain (r : RelIdent) : Prop := OptIdent r.qualifier ∧ Ident r.name ∧ OptIdent r.alias

/-- Names are identifiers, types and literals make sense by themselves. -/
def ValPlain : VExpr α → Prop
  | .default | .absent => True
  | .param a => Whole (f a)
  | .col c => ColPlain c
  | .xcol n => Ident n
  | .lit s => Whole s
  | .cast x t => ValPlain x ∧ Whole t
  | .nullif x y | .coalesce x y => ValPlain x ∧ ValPlain y
  | .call fn x => Ident fn ∧ ValPlain x
  | .quantified _ x => ValPlain x

mutual
def CondPlain : BExpr α → Prop
  | .binary _ l r => ValPlain f l ∧ ValPlain f r
  | .inList _ x a => ValPlain f x ∧ Whole (f a)
  | .truth _ _ x | .null _ x | .bare x => ValPlain f x
  | .between x lo hi => ValPlain f x ∧ ValPlain f lo ∧ ValPlain f hi
  | .group l => CondsPlain true l
/-- And every condition but the first has AND or OR in front of it. (The text of the first may have: that is no
question of tokens.) -/
def CondsPlain (first : Bool) : BList α → Prop
  | .nil => True
  | .cons k x rest => (k = .initial → first = true) ∧ CondPlain x ∧ CondsPlain false rest
end

def JoinPlain (j : TableJoin α) : Prop := RelPlain j.rel ∧ CondsPlain f true j.cond

def TablePlain : TableExpr α → Prop
  | .rel r => RelPlain r
  | .join j => JoinPlain f j
  | .values => True

def LimitPlain : LimitVal α → Prop
  | .param a => Whole (f a)
  | _ => True

def TargetPlain : ConflictTarget → Prop
  | .index e p => Whole e ∧ Whole p
  | .constraint n => Ident n

def ConflictPlain (c : ConflictClause) : Prop :=
  (∀ t, c.target = some t → TargetPlain t) ∧ ∀ n ∈ c.update, Ident n

def WherePlain (w : Option (BList α)) : Prop := ∀ l, w = some l → CondsPlain f true l

def ValsPlain (l : List (VExpr α)) : Prop := ∀ v ∈ l, ValPlain f v

def SelectPlain (joins : List (TableJoin α)) (wher : Option (BList α)) (order : List OrderBy)
    (limit offset : LimitVal α) : Prop :=
  (∀ j ∈ joins, JoinPlain f j) ∧ WherePlain f wher ∧ (∀ o ∈ order, ColPlain o.column) ∧
    LimitPlain f limit ∧ LimitPlain f offset

def StmtPlain : Stmt α → Prop
  | .insert t cs _ vs c r =>
    RelPlain t ∧ (∀ n ∈ cs, Ident n) ∧ (∀ l, vs = some l → ValsPlain f l) ∧ (∀ x, c = some x → ConflictPlain x) ∧
      ValsPlain f r
  | .update t cs vs fr w r =>
    RelPlain t ∧ (∀ n ∈ cs, Ident n) ∧ ValsPlain f vs ∧ (∀ x ∈ fr, TablePlain f x) ∧ WherePlain f w ∧
      ValsPlain f r
  | .select cs t js w o l k => ValsPlain f cs ∧ RelPlain t ∧ SelectPlain f js w o l k
  | .count t js w o k => RelPlain t ∧ SelectPlain f js w o .none k
  | .exists_ _ _ t js w o l k => RelPlain t ∧ SelectPlain f js w o l k
  | .delete t us w r => RelPlain t ∧ (∀ x ∈ us, TablePlain f x) ∧ WherePlain f w ∧ ValsPlain f r

def TailPlain : Tail α → Prop
  | .none => True
  | .insert c r => (∀ x, c = some x → ConflictPlain x) ∧ ValsPlain f r
  | .update a w r => (∀ cs, a = some cs → ∀ n ∈ cs, Ident n) ∧ WherePlain f w ∧ ValsPlain f r

end

end Verif.Generator.Lex
