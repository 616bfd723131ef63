import Verif.Generator.SpecGram
import Verif.Generator.Toks

/-
The trees that the statements are meant to be read as, and what is required of the texts in them.

This is the specification of C89; `f` is the text of a value given at run time, as in Print.lean.
-/
namespace Verif.Generator.Gram
open Verif.Analysis Verif.Postgres Verif.Generator.Lex Print

section
variable {α : Type} (f : α → Bytes)

/-- The value that the tokens of a text are: one token, or a call without arguments. -/
def atom : List Tok → Option Ex
  | [t] => if isConst t then some (.const t) else none
  | [.word w, .punct '(', .punct ')'] => if funcWord w then some (.call w []) else none
  | _ => none

def atomEx (ts : List Tok) : Ex := (atom ts).getD .star

/-- The names of a column. -/
def colPath (c : ColIdent) : List Tok :=
  (if c.qualifier.length > 0 then [.word (lower c.qualifier)] else []) ++ [.name c.name]

def valTree : VExpr α → Ex
  | .default => .const (.word b!"default")
  | .param a => atomEx (lex (f a))
  | .col c => .col (colPath c)
  | .xcol n => .col [.word b!"x", .name n]
  | .lit s => atomEx (lex s)
  | .cast x t => .cast (valTree x) (lex t)
  | .nullif x y => .call b!"nullif" [valTree x, valTree y]
  | .coalesce x y => .call b!"coalesce" [valTree x, valTree y]
  | .call fn x => .call (lower fn) [valTree x]
  | .quantified _ x => valTree x
  | .absent => .star

def quantWord : Quant → Bytes
  | .any => b!"any"
  | .some => b!"some"
  | .all => b!"all"

def opText : BinOp → Bytes
  | .eq => b!"="
  | .ne => b!"<>"
  | .ne2 => b!"!="
  | .lt => b!"<"
  | .gt => b!">"
  | .le => b!"<="
  | .ge => b!">="
  | .matches => b!"~"
  | .matchesCI => b!"~*"
  | .notMatches => b!"!~"
  | .notMatchesCI => b!"!~*"
  | _ => []

/-- An operator applied to two values. -/
def binTree (op : BinOp) (l r : Ex) : Ex :=
  match op with
  | .like n => .like n b!"like" l r
  | .ilike n => .like n b!"ilike" l r
  | .similar n => .like n b!"similar" l r
  | .distinct n => .distinct n l r
  | o => .op (opText o) l r

/-- The values of an IN list: the tokens between the commas. -/
def listTree (ts : List Tok) : List Ex := (ts.filter fun t => t ≠ .punct ',').map .const

def truthWord : Truth → Bytes
  | .unknown => b!"unknown"
  | .true => b!"true"
  | .false => b!"false"

/-- What follows an OR, if there is something before it. -/
def orTree (a : Option Ex) (b : Ex) : Ex :=
  match a with
  | none => b
  | some a => .or a b

mutual
def condTree : BExpr α → Ex
  | .binary op l (.quantified q r) => .quant (binToks op) (quantWord q) (valTree f l) (valTree f r)
  | .binary op l r => binTree op (valTree f l) (valTree f r)
  | .inList n x a => .isIn n (valTree f x) (listTree (lex (f a)))
  | .truth n t x => .is n (truthWord t) (valTree f x)
  | .null n x => .is n b!"null" (valTree f x)
  | .between x lo hi => .between false (valTree f x) (valTree f lo) (valTree f hi)
  | .bare x => valTree f x
  | .group l => condsTree l
/-- The conditions between ORs are taken together first. -/
def condsTree : BList α → Ex
  | .nil => .star
  | .cons _ x rest => restTree none (condTree x) rest
/-- `o` is what stands before the last OR, `a` what follows it. -/
def restTree (o : Option Ex) (a : Ex) : BList α → Ex
  | .nil => orTree o a
  | .cons .or x rest => restTree (some (orTree o a)) (condTree x) rest
  | .cons _ x rest => restTree o (.and a (condTree x)) rest
end

/-! ### What is required -/

/-- The text is a type. -/
def TypeText (t : Bytes) : Prop := typeName (lex t) = some (lex t, [])

instance (t : Bytes) : Decidable (TypeText t) := by unfold TypeText; infer_instance

/-- The text is a value by itself. -/
def AtomText (t : Bytes) : Prop := (atom (lex t)).isSome = true

instance (t : Bytes) : Decidable (AtomText t) := by unfold AtomText; infer_instance

/-- An alias or a qualifier: no reserved word. -/
def WordOk (q : Bytes) : Prop := q.length > 0 → nameWord (lower q) = true

def ValGram : VExpr α → Prop
  | .default | .xcol _ => True
  | .param a => AtomText (f a)
  | .col c => WordOk c.qualifier
  | .lit s => AtomText s
  | .cast x t => ValGram x ∧ TypeText t
  | .nullif x y | .coalesce x y => ValGram x ∧ ValGram y
  | .call fn x => funcWord (lower fn) = true ∧ ValGram x
  | .quantified _ _ | .absent => False

/-- The operators that can be used with ANY, SOME and ALL. -/
def quantifiable : BinOp → Bool
  | .similar _ | .distinct _ => false
  | _ => true

/-- The right side of an operator. -/
def RhsGram (op : BinOp) : VExpr α → Prop
  | .quantified _ x => quantifiable op = true ∧ ValGram f x
  | x => ValGram f x

/-- Values with commas between them, at least one. -/
def ListText (t : Bytes) : Prop := ∃ l : List Tok, l ≠ [] ∧ (∀ x ∈ l, isConst x = true) ∧ lex t = commaToks (l.map ([·]))

mutual
def CondGram : BExpr α → Prop
  | .binary op l r => ValGram f l ∧ RhsGram f op r
  | .inList _ x a => ValGram f x ∧ ListText (f a)
  | .truth _ _ x | .null _ x | .bare x => ValGram f x
  | .between x lo hi => ValGram f x ∧ ValGram f lo ∧ ValGram f hi
  | .group l => CondsGram l
/-- There is a condition, and AND or OR in front of every other. -/
def CondsGram : BList α → Prop
  | .nil => False
  | .cons k x rest => k = .initial ∧ CondGram x ∧ RestGram rest
def RestGram : BList α → Prop
  | .nil => True
  | .cons k x rest => k ≠ .initial ∧ CondGram x ∧ RestGram rest
end

/-! ### Statements -/

def relTree (r : RelIdent) : RelT :=
  ⟨(if r.qualifier.length > 0 then [.word (lower r.qualifier)] else []) ++ [.name r.name],
    if r.alias.length > 0 then some (.word (lower r.alias)) else none⟩

def joinWord : Option JoinType → Bytes
  | none => []
  | some .cross => b!"cross"
  | some .inner => b!"inner"
  | some .left => b!"left"
  | some .right => b!"right"
  | some .full => b!"full"

def joinTree (j : TableJoin α) : JoinT :=
  ⟨joinWord j.type, relTree j.rel, if isNil j.cond then none else some (condsTree f j.cond)⟩

def joinPart : TableExpr α → Option JoinT
  | .join j => some (joinTree f j)
  | _ => none

/-- The tables of FROM and USING. -/
def tablesTree : List (TableExpr α) → FromT
  | .rel r :: l => .tables (relTree r) (l.filterMap (joinPart f))
  | _ => .none

def orderTree (o : OrderBy) : OrderT := ⟨.col (colPath o.column), o.desc, o.nullsFirst⟩

def limitTree : LimitVal α → Option Ex
  | .none => none
  | .int n => some (.const (.num (itoa n)))
  | .param a => some (atomEx (lex (f a)))

def overridingWord : Overriding → Bytes
  | .system => b!"system"
  | .user => b!"user"

def targetTree : Option ConflictTarget → TargetT
  | none => .none
  | some (.index e p) => .index (lex e) (lex p)
  | some (.constraint n) => .constraint (.name n)

def conflictTree (c : ConflictClause) : ConflictT :=
  ⟨targetTree c.target, c.update.map fun n => (.name n, .col [.word b!"excluded", .name n])⟩

def selTree (cols : List Ex) (t : RelIdent) (js : List (TableJoin α)) (w : Option (BList α)) (o : List OrderBy)
    (l k : LimitVal α) : SelT :=
  ⟨cols, relTree t, js.map (joinTree f), w.map (condsTree f), o.map orderTree, limitTree f l, limitTree f k⟩

/-- An INSERT of rows of values. -/
def insertTree (t : RelIdent) (cs : List Bytes) (o : Option Overriding) (rows : List (List Ex))
    (c : Option ConflictClause) (r : List (VExpr α)) : StT :=
  .insert (relTree t) (cs.map .name) (o.map overridingWord) rows (c.map conflictTree) (r.map (valTree f))

/-- The statement that is meant. -/
def stmtTree : Stmt α → StT
  | .insert t cs o vs c r => insertTree f t cs o [(vs.getD []).map (valTree f)] c r
  | .update t cs vs fr w r =>
    .update (relTree t) (cs.map .name) (vs.map (valTree f)) (tablesTree f fr) (w.map (condsTree f)) (r.map (valTree f))
  | .select cs t js w o l k => .select (selTree f (cs.map (valTree f)) t js w o l k)
  | .count t js w o k => .select (selTree f [.call b!"count" [.star]] t js w o .none k)
  | .exists_ n _ t js w o l k => .exists_ n (selTree f [.const (.num b!"1")] t js w o l k)
  | .delete t us w r => .delete (relTree t) (tablesTree f us) (w.map (condsTree f)) (r.map (valTree f))

/-! Rows: every row has placeholders of its own. -/

/-- The cells of a row, their tokens and what they mean; `p` placeholders come before them. -/
def cells (p : Nat) : List (VExpr α) → List (List Tok × Ex)
  | [] => []
  | .default :: vs => (kw b!"default", .const (.word b!"default")) :: cells p vs
  | v :: vs => (valToks (fun _ => ordinal (p + 1)) v, valTree (fun _ => ordinal (p + 1)) v) :: cells (p + 1) vs

/-- The values of the rows; every row has `k` placeholders. -/
def rowsTree (vs : List (VExpr α)) (k n : Nat) : List (List Ex) :=
  (List.range n).map fun i => (cells (i * k) vs).map (·.2)

/-- The statement with its rows and what follows them. -/
def rowedTree (vs : List (VExpr α)) (k n : Nat) : Stmt α → Tail α → Option StT
  | .insert t cs o none none [], .insert c r => some (insertTree f t cs o (rowsTree vs k n) c r)
  | .insert t cs o none none [], .none => some (insertTree f t cs o (rowsTree vs k n) none [])
  | .update t cs us [.values] none [], .update (some xs) w r =>
    some (.update (relTree t) (cs.map .name) (us.map (valTree f))
      (.values (rowsTree vs k n) (.word b!"x") (xs.map .name)) (w.map (condsTree f)) (r.map (valTree f)))
  | _, _ => none

/-! What is required of the statements. -/

def RelGram (r : RelIdent) : Prop := WordOk r.qualifier ∧ WordOk r.alias

/-- A join has a condition unless it is a cross join. -/
def JoinGram (j : TableJoin α) : Prop :=
  RelGram j.rel ∧ (if j.type = some .cross then isNil j.cond = true else CondsGram f j.cond)

/-- A table, then joins. -/
def TablesGram : List (TableExpr α) → Prop
  | [] => True
  | .rel r :: l => RelGram r ∧ ∀ x ∈ l, ∃ j, x = .join j ∧ JoinGram f j
  | _ => False

def LimitGram : LimitVal α → Prop
  | .param a => AtomText (f a)
  | _ => True

def WhereGram (w : Option (BList α)) : Prop := ∀ l, w = some l → CondsGram f l

def ValsGram (l : List (VExpr α)) : Prop := ∀ v ∈ l, ValGram f v

/-- The parentheses in the text match. -/
def ParenText (t : Bytes) : Prop := (upToClose 0 (lex t ++ [.punct ')'])).map (·.1) = some (lex t)

instance (t : Bytes) : Decidable (ParenText t) := by unfold ParenText; infer_instance

def TargetGram : ConflictTarget → Prop
  | .index e p => ParenText e ∧ (p.length > 0 → lex p ≠ []) ∧ (p.length = 0 → lex p = []) ∧ .word b!"do" ∉ lex p
  | .constraint _ => True

def ConflictGram (c : ConflictClause) : Prop := ∀ t, c.target = some t → TargetGram t

def SelGram (t : RelIdent) (js : List (TableJoin α)) (w : Option (BList α)) (o : List OrderBy) (l k : LimitVal α) :
    Prop :=
  RelGram t ∧ (∀ j ∈ js, JoinGram f j) ∧ WhereGram f w ∧ (∀ x ∈ o, WordOk x.column.qualifier) ∧ LimitGram f l ∧
    LimitGram f k

/-- The statement is complete by itself and has the columns, values and conditions that it needs. -/
def StmtGram : Stmt α → Prop
  | .insert t cs _ vs c r =>
    RelGram t ∧ cs ≠ [] ∧ (∃ l, vs = some l ∧ l ≠ [] ∧ ValsGram f l) ∧ (∀ x, c = some x → ConflictGram x) ∧ ValsGram f r
  | .update t cs vs fr w r =>
    RelGram t ∧ cs.length ≥ 2 ∧ vs.length = cs.length ∧ ValsGram f vs ∧ TablesGram f fr ∧ WhereGram f w ∧ ValsGram f r
  | .select cs t js w o l k => ValsGram f cs ∧ SelGram f t js w o l k
  | .count t js w o k => SelGram f t js w o .none k
  | .exists_ _ open_ t js w o l k => open_ = false ∧ SelGram f t js w o l k
  | .delete t us w r => RelGram t ∧ TablesGram f us ∧ WhereGram f w ∧ ValsGram f r

/-- The cells of a row are values, whatever number the placeholder has. -/
def CellsGram (vs : List (VExpr α)) : Prop := vs ≠ [] ∧ ∀ v ∈ vs, ∀ k, ValGram (fun _ => ordinal (k + 1)) v

/-- The statement needs rows and gets them. -/
def RowedGram : Stmt α → Tail α → Prop
  | .insert t cs _ none none [], .insert c r =>
    RelGram t ∧ cs ≠ [] ∧ (∀ x, c = some x → ConflictGram x) ∧ ValsGram f r
  | .insert t cs _ none none [], .none => RelGram t ∧ cs ≠ []
  | .update t cs us [.values] none [], .update (some xs) w r =>
    RelGram t ∧ cs.length ≥ 2 ∧ us.length = cs.length ∧ ValsGram f us ∧ xs ≠ [] ∧ WhereGram f w ∧ ValsGram f r
  | _, _ => False

end

end Verif.Generator.Gram
