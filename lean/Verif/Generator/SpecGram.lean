import Verif.Generator.SpecLex

/-
How PostgreSQL's parser reads the tokens of a statement (manual, 4.1.6 Operator Precedence, 4.2 Value
Expressions, VI SQL Commands; appendix C for the key words).  A specification, independent of /repo.

Described are SELECT, INSERT, UPDATE and DELETE over tables with joins, with the operators of conditions.  Not
described, and refused here: arithmetic operators, ESCAPE, COLLATE, CASE, arrays in brackets, row values,
subqueries other than that of EXISTS, schemas of functions, aliases without AS, RETURNING with names, common
table expressions, GROUP BY, and types other than `names [(numbers)] [time zone] [dimensions]`.  DEFAULT is read
as a value.  The index of ON CONFLICT and its predicate are taken as they are: up to the parenthesis that closes,
up to DO.
-/
namespace Verif.Generator.Gram
open Verif.Generator.Lex

/-! ### Key words -/

/-- Reserved key words. -/
def reserved : List Bytes :=
  [b!"all", b!"analyse", b!"analyze", b!"and", b!"any", b!"array", b!"as", b!"asc", b!"asymmetric", b!"both",
   b!"case", b!"cast", b!"check", b!"collate", b!"column", b!"constraint", b!"create", b!"current_catalog",
   b!"current_date", b!"current_role", b!"current_time", b!"current_timestamp", b!"current_user", b!"default",
   b!"deferrable", b!"desc", b!"distinct", b!"do", b!"else", b!"end", b!"except", b!"false", b!"fetch", b!"for",
   b!"foreign", b!"from", b!"grant", b!"group", b!"having", b!"in", b!"initially", b!"intersect", b!"into",
   b!"lateral", b!"leading", b!"limit", b!"localtime", b!"localtimestamp", b!"not", b!"null", b!"offset", b!"on",
   b!"only", b!"or", b!"order", b!"placing", b!"primary", b!"references", b!"returning", b!"select",
   b!"session_user", b!"some", b!"symmetric", b!"table", b!"then", b!"to", b!"trailing", b!"true", b!"union",
   b!"unique", b!"user", b!"using", b!"variadic", b!"when", b!"where", b!"window", b!"with"]

/-- Reserved key words that can be the name of a function or of a type. -/
def typeFunc : List Bytes :=
  [b!"authorization", b!"binary", b!"collation", b!"concurrently", b!"cross", b!"current_schema", b!"freeze",
   b!"full", b!"ilike", b!"inner", b!"is", b!"isnull", b!"join", b!"left", b!"like", b!"natural", b!"notnull",
   b!"outer", b!"overlaps", b!"right", b!"similar", b!"tablesample", b!"verbose"]

/-- Key words that are not reserved but cannot be the name of a function. -/
def noFunc : List Bytes :=
  [b!"between", b!"bigint", b!"bit", b!"boolean", b!"char", b!"character", b!"dec", b!"decimal", b!"exists",
   b!"extract", b!"float", b!"grouping", b!"inout", b!"int", b!"integer", b!"interval", b!"national", b!"nchar",
   b!"none", b!"normalize", b!"numeric", b!"out", b!"overlay", b!"position", b!"precision", b!"real", b!"row",
   b!"setof", b!"smallint", b!"substring", b!"time", b!"timestamp", b!"treat", b!"trim", b!"values", b!"varchar",
   b!"xmlattributes", b!"xmlconcat", b!"xmlelement", b!"xmlexists", b!"xmlforest", b!"xmlnamespaces", b!"xmlparse",
   b!"xmlpi", b!"xmlroot", b!"xmlserialize", b!"xmltable"]

/-- The word can name a column, a table, an alias. -/
def nameWord (w : Bytes) : Bool := !reserved.contains w && !typeFunc.contains w

/-- The word can name a function; `coalesce` and `nullif` are called like functions. -/
def funcWord (w : Bytes) : Bool := !reserved.contains w && !noFunc.contains w

/-- The word can name a type, or begin the name of one. -/
def typeWord (w : Bytes) : Bool := !reserved.contains w

def isName : Tok → Bool
  | .name _ => true
  | .word w => nameWord w
  | _ => false

/-- What may stand after a point. -/
def isLabel : Tok → Bool
  | .name _ | .word _ => true
  | _ => false

/-- The values that are one token. -/
def isConst : Tok → Bool
  | .num _ | .str _ | .param _ => true
  | .word w => w = b!"true" || w = b!"false" || w = b!"null" || w = b!"default" || w = b!"current_date" ||
      w = b!"current_timestamp" || w = b!"current_time" || w = b!"localtime" || w = b!"localtimestamp"
  | _ => false

/-! ### Trees -/

/-- An expression as it is read; parentheses leave no trace. -/
inductive Ex where
  | const (t : Tok)
  /-- the names that are separated by points -/
  | col (path : List Tok)
  /-- a call of a function; `count(*)` has the argument `star` -/
  | call (fn : Bytes) (args : List Ex)
  | star
  | cast (x : Ex) (type : List Tok)
  | neg (x : Ex)
  | op (o : Bytes) (l r : Ex)
  /-- `l o ANY (r)`; `o` are the tokens of the operator -/
  | quant (o : List Tok) (q : Bytes) (l r : Ex)
  /-- LIKE, ILIKE, SIMILAR TO -/
  | like (not : Bool) (kind : Bytes) (l r : Ex)
  | between (not : Bool) (x lo hi : Ex)
  | isIn (not : Bool) (x : Ex) (l : List Ex)
  /-- IS NULL, TRUE, FALSE, UNKNOWN -/
  | is (not : Bool) (what : Bytes) (x : Ex)
  | distinct (not : Bool) (l r : Ex)
  | not (x : Ex)
  | and (l r : Ex)
  | or (l r : Ex)
deriving Repr

/-! Equality of trees can be decided. -/

mutual
def Ex.beq : Ex → Ex → Bool
  | .const t0, .const t0' => decide (t0 = t0')
  | .col t0, .col t0' => decide (t0 = t0')
  | .call t0 l1, .call t0' l1' => decide (t0 = t0') && Ex.beqs l1 l1'
  | .star, .star => true
  | .cast x0 t1, .cast x0' t1' => x0.beq x0' && decide (t1 = t1')
  | .neg x0, .neg x0' => x0.beq x0'
  | .op t0 x1 x2, .op t0' x1' x2' => decide (t0 = t0') && x1.beq x1' && x2.beq x2'
  | .quant t0 t1 x2 x3, .quant t0' t1' x2' x3' => decide (t0 = t0') && decide (t1 = t1') && x2.beq x2' && x3.beq x3'
  | .like t0 t1 x2 x3, .like t0' t1' x2' x3' => decide (t0 = t0') && decide (t1 = t1') && x2.beq x2' && x3.beq x3'
  | .between t0 x1 x2 x3, .between t0' x1' x2' x3' => decide (t0 = t0') && x1.beq x1' && x2.beq x2' && x3.beq x3'
  | .isIn t0 x1 l2, .isIn t0' x1' l2' => decide (t0 = t0') && x1.beq x1' && Ex.beqs l2 l2'
  | .is t0 t1 x2, .is t0' t1' x2' => decide (t0 = t0') && decide (t1 = t1') && x2.beq x2'
  | .distinct t0 x1 x2, .distinct t0' x1' x2' => decide (t0 = t0') && x1.beq x1' && x2.beq x2'
  | .not x0, .not x0' => x0.beq x0'
  | .and x0 x1, .and x0' x1' => x0.beq x0' && x1.beq x1'
  | .or x0 x1, .or x0' x1' => x0.beq x0' && x1.beq x1'
  | _, _ => false
def Ex.beqs : List Ex → List Ex → Bool
  | [], [] => true
  | x :: l, y :: r => x.beq y && Ex.beqs l r
  | _, _ => false
end

mutual
theorem Ex.beq_sound : ∀ {a b : Ex}, a.beq b = true → a = b
  | .const t0, b, h => by
    cases b <;> simp only [Ex.beq, Bool.false_eq_true, decide_eq_true_eq] at h
    rw [h]
  | .col t0, b, h => by
    cases b <;> simp only [Ex.beq, Bool.false_eq_true, decide_eq_true_eq] at h
    rw [h]
  | .call t0 l1, b, h => by
    cases b <;> simp only [Ex.beq, Bool.false_eq_true, Bool.and_eq_true, decide_eq_true_eq] at h
    rw [h.1, Ex.beqs_sound h.2]
  | .star, b, h => by
    cases b <;> simp only [Ex.beq, Bool.false_eq_true] at h
    rfl
  | .cast x0 t1, b, h => by
    cases b <;> simp only [Ex.beq, Bool.false_eq_true, Bool.and_eq_true, decide_eq_true_eq] at h
    rw [Ex.beq_sound h.1, h.2]
  | .neg x0, b, h => by
    cases b <;> simp only [Ex.beq, Bool.false_eq_true] at h
    rw [Ex.beq_sound h]
  | .op t0 x1 x2, b, h => by
    cases b <;> simp only [Ex.beq, Bool.false_eq_true, Bool.and_eq_true, decide_eq_true_eq] at h
    rw [h.1.1, Ex.beq_sound h.1.2, Ex.beq_sound h.2]
  | .quant t0 t1 x2 x3, b, h => by
    cases b <;> simp only [Ex.beq, Bool.false_eq_true, Bool.and_eq_true, decide_eq_true_eq] at h
    rw [h.1.1.1, h.1.1.2, Ex.beq_sound h.1.2, Ex.beq_sound h.2]
  | .like t0 t1 x2 x3, b, h => by
    cases b <;> simp only [Ex.beq, Bool.false_eq_true, Bool.and_eq_true, decide_eq_true_eq] at h
    rw [h.1.1.1, h.1.1.2, Ex.beq_sound h.1.2, Ex.beq_sound h.2]
  | .between t0 x1 x2 x3, b, h => by
    cases b <;> simp only [Ex.beq, Bool.false_eq_true, Bool.and_eq_true, decide_eq_true_eq] at h
    rw [h.1.1.1, Ex.beq_sound h.1.1.2, Ex.beq_sound h.1.2, Ex.beq_sound h.2]
  | .isIn t0 x1 l2, b, h => by
    cases b <;> simp only [Ex.beq, Bool.false_eq_true, Bool.and_eq_true, decide_eq_true_eq] at h
    rw [h.1.1, Ex.beq_sound h.1.2, Ex.beqs_sound h.2]
  | .is t0 t1 x2, b, h => by
    cases b <;> simp only [Ex.beq, Bool.false_eq_true, Bool.and_eq_true, decide_eq_true_eq] at h
    rw [h.1.1, h.1.2, Ex.beq_sound h.2]
  | .distinct t0 x1 x2, b, h => by
    cases b <;> simp only [Ex.beq, Bool.false_eq_true, Bool.and_eq_true, decide_eq_true_eq] at h
    rw [h.1.1, Ex.beq_sound h.1.2, Ex.beq_sound h.2]
  | .not x0, b, h => by
    cases b <;> simp only [Ex.beq, Bool.false_eq_true] at h
    rw [Ex.beq_sound h]
  | .and x0 x1, b, h => by
    cases b <;> simp only [Ex.beq, Bool.false_eq_true, Bool.and_eq_true] at h
    rw [Ex.beq_sound h.1, Ex.beq_sound h.2]
  | .or x0 x1, b, h => by
    cases b <;> simp only [Ex.beq, Bool.false_eq_true, Bool.and_eq_true] at h
    rw [Ex.beq_sound h.1, Ex.beq_sound h.2]
theorem Ex.beqs_sound : ∀ {a b : List Ex}, Ex.beqs a b = true → a = b
  | [], [], _ => rfl
  | [], _ :: _, h => by simp [Ex.beqs] at h
  | _ :: _, [], h => by simp [Ex.beqs] at h
  | x :: l, y :: r, h => by
    simp only [Ex.beqs, Bool.and_eq_true] at h
    rw [Ex.beq_sound h.1, Ex.beqs_sound h.2]
end

mutual
theorem Ex.beq_refl : ∀ a : Ex, a.beq a = true
  | .const t0 => by simp [Ex.beq]
  | .col t0 => by simp [Ex.beq]
  | .call t0 l1 => by simp [Ex.beq, Ex.beqs_refl l1]
  | .star => by simp [Ex.beq]
  | .cast x0 t1 => by simp [Ex.beq, Ex.beq_refl x0]
  | .neg x0 => by simp [Ex.beq, Ex.beq_refl x0]
  | .op t0 x1 x2 => by simp [Ex.beq, Ex.beq_refl x1, Ex.beq_refl x2]
  | .quant t0 t1 x2 x3 => by simp [Ex.beq, Ex.beq_refl x2, Ex.beq_refl x3]
  | .like t0 t1 x2 x3 => by simp [Ex.beq, Ex.beq_refl x2, Ex.beq_refl x3]
  | .between t0 x1 x2 x3 => by simp [Ex.beq, Ex.beq_refl x1, Ex.beq_refl x2, Ex.beq_refl x3]
  | .isIn t0 x1 l2 => by simp [Ex.beq, Ex.beq_refl x1, Ex.beqs_refl l2]
  | .is t0 t1 x2 => by simp [Ex.beq, Ex.beq_refl x2]
  | .distinct t0 x1 x2 => by simp [Ex.beq, Ex.beq_refl x1, Ex.beq_refl x2]
  | .not x0 => by simp [Ex.beq, Ex.beq_refl x0]
  | .and x0 x1 => by simp [Ex.beq, Ex.beq_refl x0, Ex.beq_refl x1]
  | .or x0 x1 => by simp [Ex.beq, Ex.beq_refl x0, Ex.beq_refl x1]
theorem Ex.beqs_refl : ∀ l : List Ex, Ex.beqs l l = true
  | [] => by simp [Ex.beqs]
  | x :: l => by simp [Ex.beqs, Ex.beq_refl x, Ex.beqs_refl l]
end

instance : DecidableEq Ex := fun a b => decidable_of_iff (a.beq b = true) ⟨Ex.beq_sound, fun h => h ▸ Ex.beq_refl a⟩

/-- A reader of tokens: what was read and what is left. -/
abbrev Ps (β : Type) := List Tok → Option (β × List Tok)

/-! ### Types -/

/-- The names after points. -/
def dots : List Tok → List Tok × List Tok
  | .punct '.' :: t :: r => if isLabel t then ((t :: (dots r).1), (dots r).2) else ([], .punct '.' :: t :: r)
  | r => ([], r)

/-- The names with points before them. -/
def dotted : List Tok → List Tok
  | [] => []
  | t :: r => .punct '.' :: t :: dotted r

/-- `n, n)` -/
def mods : Ps (List Tok)
  | .num a :: .punct ')' :: r => some ([.num a, .punct ')'], r)
  | .num a :: .punct ',' :: r => (mods r).map fun y => (.num a :: .punct ',' :: y.1, y.2)
  | _ => none

/-- `[]`, any number of times -/
def dims : List Tok → List Tok × List Tok
  | .punct '[' :: .punct ']' :: r => (.punct '[' :: .punct ']' :: (dims r).1, (dims r).2)
  | r => ([], r)

/-- The second word of a name: `double precision`, `character varying`, `bit varying`. -/
def second (w : Bytes) : List Tok → List Tok × List Tok
  | .word v :: r =>
    if (w = b!"double" ∧ v = b!"precision") ∨
        ((w = b!"character" ∨ w = b!"char" ∨ w = b!"bit") ∧ v = b!"varying") then ([.word v], r)
    else ([], .word v :: r)
  | r => ([], r)

/-- The words `with time zone` and `without time zone`. -/
def zone (w : Bytes) : List Tok → List Tok × List Tok
  | .word a :: .word b :: .word c :: r =>
    if (w = b!"time" ∨ w = b!"timestamp") ∧ (a = b!"with" ∨ a = b!"without") ∧ b = b!"time" ∧ c = b!"zone" then
      ([.word a, .word b, .word c], r)
    else ([], .word a :: .word b :: .word c :: r)
  | r => ([], r)

/-- `(n, n)`, if there is one. -/
def optMods : Ps (List Tok)
  | .punct '(' :: r => (mods r).map fun y => (.punct '(' :: y.1, y.2)
  | r => some ([], r)

/-- The token can begin a type. -/
def typeStart : Tok → Bool
  | .name _ => true
  | .word w => typeWord w
  | _ => false

def wordOf : Tok → Bytes
  | .word w => w
  | _ => []

/-- A type. -/
def typeName : Ps (List Tok)
  | t :: r =>
    if typeStart t then
      let w := wordOf t
      let d := dots r
      let s := second w d.2
      (optMods s.2).map fun m =>
        let z := zone w m.2
        let a := dims z.2
        (t :: (dotted d.1 ++ (s.1 ++ (m.1 ++ (z.1 ++ a.1)))), a.2)
    else none
  | [] => none

/-! ### Expressions -/

/-- Things with commas between them. -/
def listOf {β : Type} (p : Ps β) : Nat → Ps (List β)
  | 0, _ => none
  | n + 1, ts =>
    (p ts).bind fun y =>
      match y.2 with
      | .punct ',' :: r => (listOf p n r).map fun z => (y.1 :: z.1, z.2)
      | r => some ([y.1], r)

/-- A parenthesis that closes. -/
def close {β : Type} (y : β × List Tok) : Option (β × List Tok) :=
  match y.2 with
  | .punct ')' :: r => some (y.1, r)
  | _ => none

/-- The arguments of a call, after the parenthesis that opens. -/
def args (e : Ps Ex) (n : Nat) : Ps (List Ex)
  | .punct ')' :: r => some ([], r)
  | .op o :: r => if o = b!"*" then close ([Ex.star], r) else (listOf e n (.op o :: r)).bind close
  | ts => (listOf e n ts).bind close

/-- A column, or a call. -/
def nameOrCall (e : Ps Ex) (n : Nat) (t : Tok) (r : List Tok) : Option (Ex × List Tok) :=
  match t, r with
  | .word w, .punct '(' :: r => if funcWord w then (args e n r).map fun y => (.call w y.1, y.2) else none
  | t, r => if isName t then some (.col (t :: (dots r).1), (dots r).2) else none

/-- A value, a column, a call, or an expression in parentheses. -/
def prim (e : Ps Ex) (n : Nat) : Ps Ex
  | .punct '(' :: r => (e r).bind close
  | t :: r => if isConst t then some (.const t, r) else nameOrCall e n t r
  | [] => none

/-- `:: type`, any number of times. -/
def castLoop : Nat → Ex → Ps Ex
  | 0, _, _ => none
  | n + 1, x, .cast :: r => (typeName r).bind fun y => castLoop n (.cast x y.1) y.2
  | _ + 1, x, r => some (x, r)

def castLevel (e : Ps Ex) (n : Nat) : Ps Ex := fun ts => (prim e n ts).bind fun y => castLoop n y.1 y.2

/-- The minus sign binds less tightly than `::`. -/
def negLevel (e : Ps Ex) (n : Nat) : Ps Ex
  | .op o :: r => if o = b!"-" then (castLevel e n r).map fun y => (.neg y.1, y.2) else none
  | ts => castLevel e n ts

def isCmp (o : Bytes) : Bool :=
  o = b!"=" || o = b!"<" || o = b!">" || o = b!"<=" || o = b!">=" || o = b!"<>" || o = b!"!="

def isArith (o : Bytes) : Bool :=
  o = b!"+" || o = b!"-" || o = b!"*" || o = b!"/" || o = b!"%" || o = b!"^"

/-- Other operators. -/
def isOther (o : Bytes) : Bool := !isCmp o && !isArith o

def isQuant (w : Bytes) : Bool := w = b!"any" || w = b!"some" || w = b!"all"

/-- What stands on the right of an operator: ANY, SOME or ALL of an array, or an expression. -/
def rhs (p e : Ps Ex) (x : Ex) (o : List Tok) (mk : Ex → Ex) : Ps Ex
  | .word q :: .punct '(' :: r =>
    if isQuant q then ((e r).bind close).map fun y => (.quant o q x y.1, y.2)
    else (p (.word q :: .punct '(' :: r)).map fun y => (mk y.1, y.2)
  | ts => (p ts).map fun y => (mk y.1, y.2)

/-- The other operators: to the left. -/
def opLoop (e : Ps Ex) (k : Nat) : Nat → Ex → Ps Ex
  | 0, _, _ => none
  | n + 1, x, .op o :: r =>
    if isOther o then (rhs (negLevel e k) e x [.op o] (.op o x) r).bind fun y => opLoop e k n y.1 y.2
    else some (x, .op o :: r)
  | _ + 1, x, r => some (x, r)

def opLevel (e : Ps Ex) (n : Nat) : Ps Ex := fun ts => (negLevel e n ts).bind fun y => opLoop e n n y.1 y.2

/-- LIKE, ILIKE, SIMILAR TO, BETWEEN, IN: not twice in a row. A NOT has been read or not. -/
def rangeTail (e : Ps Ex) (n : Nat) (not : Bool) (x : Ex) : Ps Ex
  | .word w :: r =>
    if w = b!"like" ∨ w = b!"ilike" then
      rhs (opLevel e n) e x ((if not then [.word b!"not"] else []) ++ [.word w]) (.like not w x) r
    else if w = b!"similar" then
      match r with
      | .word v :: r => if v = b!"to" then (opLevel e n r).map fun y => (.like not w x y.1, y.2) else none
      | _ => none
    else if w = b!"between" then
      (opLevel e n r).bind fun y =>
        match y.2 with
        | .word v :: r => if v = b!"and" then (opLevel e n r).map fun z => (.between not x y.1 z.1, z.2) else none
        | _ => none
    else if w = b!"in" then
      match r with
      | .punct '(' :: r => ((listOf e n r).bind close).map fun y => (.isIn not x y.1, y.2)
      | _ => none
    else if not then none else some (x, .word w :: r)
  | r => if not then none else some (x, r)

def rangeLevel (e : Ps Ex) (n : Nat) : Ps Ex := fun ts =>
  (opLevel e n ts).bind fun y =>
    match y.2 with
    | .word w :: r => if w = b!"not" then rangeTail e n true y.1 r else rangeTail e n false y.1 (.word w :: r)
    | r => some (y.1, r)

/-- Comparisons: not twice in a row. -/
def cmpLevel (e : Ps Ex) (n : Nat) : Ps Ex := fun ts =>
  (rangeLevel e n ts).bind fun y =>
    match y.2 with
    | .op o :: r => if isCmp o then rhs (rangeLevel e n) e y.1 [.op o] (.op o y.1) r else some (y.1, .op o :: r)
    | r => some (y.1, r)

def isTail (e : Ps Ex) (n : Nat) (not : Bool) (x : Ex) : Ps Ex
  | .word w :: r =>
    if w = b!"null" ∨ w = b!"true" ∨ w = b!"false" ∨ w = b!"unknown" then some (.is not w x, r)
    else if w = b!"distinct" then
      match r with
      | .word v :: r => if v = b!"from" then (cmpLevel e n r).map fun y => (.distinct not x y.1, y.2) else none
      | _ => none
    else none
  | _ => none

/-- IS: not twice in a row. -/
def isLevel (e : Ps Ex) (n : Nat) : Ps Ex := fun ts =>
  (cmpLevel e n ts).bind fun y =>
    match y.2 with
    | .word w :: r =>
      if w = b!"is" then
        match r with
        | .word v :: r => if v = b!"not" then isTail e n true y.1 r else isTail e n false y.1 (.word v :: r)
        | _ => none
      else some (y.1, .word w :: r)
    | r => some (y.1, r)

def notLevel (e : Ps Ex) (k : Nat) : Nat → Ps Ex
  | 0, _ => none
  | n + 1, .word w :: r =>
    if w = b!"not" then (notLevel e k n r).map fun y => (.not y.1, y.2) else isLevel e k (.word w :: r)
  | _ + 1, ts => isLevel e k ts

def andLoop (e : Ps Ex) (k : Nat) : Nat → Ex → Ps Ex
  | 0, _, _ => none
  | n + 1, x, .word w :: r =>
    if w = b!"and" then (notLevel e k k r).bind fun y => andLoop e k n (.and x y.1) y.2 else some (x, .word w :: r)
  | _ + 1, x, r => some (x, r)

def andLevel (e : Ps Ex) (n : Nat) : Ps Ex := fun ts => (notLevel e n n ts).bind fun y => andLoop e n n y.1 y.2

def orLoop (e : Ps Ex) (k : Nat) : Nat → Ex → Ps Ex
  | 0, _, _ => none
  | n + 1, x, .word w :: r =>
    if w = b!"or" then (andLevel e k r).bind fun y => orLoop e k n (.or x y.1) y.2 else some (x, .word w :: r)
  | _ + 1, x, r => some (x, r)

/-- An expression; `n` bounds the number of tokens. -/
def expr : Nat → Ps Ex
  | 0, _ => none
  | n + 1, ts => (andLevel (expr n) (n + 1) ts).bind fun y => orLoop (expr n) (n + 1) (n + 1) y.1 y.2

/-! ### Statements -/

structure RelT where
  path : List Tok
  alias : Option Tok
deriving Repr, DecidableEq

structure JoinT where
  /-- empty for JOIN by itself -/
  kind : Bytes
  rel : RelT
  on : Option Ex
deriving Repr, DecidableEq

structure OrderT where
  by_ : Ex
  desc : Bool
  nullsFirst : Bool
deriving Repr, DecidableEq

inductive FromT where
  | none
  | tables (r : RelT) (js : List JoinT)
  /-- (VALUES rows) AS alias (columns) -/
  | values (rows : List (List Ex)) (alias : Tok) (cols : List Tok)
deriving Repr, DecidableEq

structure SelT where
  cols : List Ex
  rel : RelT
  joins : List JoinT
  wher : Option Ex
  order : List OrderT
  limit : Option Ex
  offset : Option Ex
deriving Repr, DecidableEq

inductive TargetT where
  | none
  | index (e : List Tok) (where_ : List Tok)
  | constraint (t : Tok)
deriving Repr, DecidableEq

structure ConflictT where
  target : TargetT
  /-- what is set; nothing for DO NOTHING -/
  set : List (Tok × Ex)
deriving Repr, DecidableEq

inductive StT where
  | select (s : SelT)
  | exists_ (not : Bool) (s : SelT)
  | insert (rel : RelT) (cols : List Tok) (overriding : Option Bytes) (rows : List (List Ex))
      (conflict : Option ConflictT) (returning : List Ex)
  | update (rel : RelT) (cols : List Tok) (vals : List Ex) (from_ : FromT) (wher : Option Ex) (returning : List Ex)
  | delete (rel : RelT) (using_ : FromT) (wher : Option Ex) (returning : List Ex)
deriving Repr, DecidableEq

/-- The words, then what `p` reads. -/
def after {β : Type} : List Bytes → Ps β → Ps β
  | [], p, ts => p ts
  | w :: ws, p, .word v :: r => if v = w then after ws p r else none
  | _ :: _, _, _ => none

/-- If the first of the words is there, the others and what `p` reads; nothing otherwise. -/
def opt {β : Type} (w : Bytes) (ws : List Bytes) (p : Ps β) : Ps (Option β)
  | .word v :: r =>
    if v = w then (after ws p r).map fun y => (some y.1, y.2) else some (none, .word v :: r)
  | r => some (none, r)

/-- A table with an alias or without. -/
def relation : Ps RelT
  | t :: r =>
    if isName t then
      match (dots r).2 with
      | .word w :: a :: s =>
        if w = b!"as" then (if isName a then some (⟨t :: (dots r).1, some a⟩, s) else none)
        else some (⟨t :: (dots r).1, none⟩, .word w :: a :: s)
      | s => some (⟨t :: (dots r).1, none⟩, s)
    else none
  | [] => none

/-- The rest of a join: the relation, and ON unless it is a cross join. -/
def join (n : Nat) (kind : Bytes) : Ps JoinT := fun ts =>
  (relation ts).bind fun y =>
    if kind = b!"cross" then some (⟨kind, y.1, none⟩, y.2)
    else (after [b!"on"] (expr n) y.2).map fun z => (⟨kind, y.1, some z.1⟩, z.2)

def isJoin (w : Bytes) : Bool :=
  w = b!"cross" || w = b!"inner" || w = b!"left" || w = b!"right" || w = b!"full"

def joins (n : Nat) : Nat → Ps (List JoinT)
  | 0, _ => none
  | k + 1, .word w :: r =>
    if w = b!"join" then
      (join n [] r).bind fun y => (joins n k y.2).map fun z => (y.1 :: z.1, z.2)
    else if isJoin w then
      (after [b!"join"] (join n w) r).bind fun y => (joins n k y.2).map fun z => (y.1 :: z.1, z.2)
    else some ([], .word w :: r)
  | _ + 1, r => some ([], r)

/-- NULLS FIRST or NULLS LAST; without either the nulls are first if the order is descending. -/
def nullsP (desc : Bool) : List Tok → Bool × List Tok
  | .word a :: .word b :: r =>
    if a = b!"nulls" ∧ (b = b!"first" ∨ b = b!"last") then (b = b!"first", r) else (desc, .word a :: .word b :: r)
  | r => (desc, r)

/-- One element of ORDER BY; ascending without a word. -/
def order1 (n : Nat) : Ps OrderT := fun ts =>
  (expr n ts).map fun y =>
    match y.2 with
    | .word d :: r =>
      if d = b!"asc" ∨ d = b!"desc" then (⟨y.1, d = b!"desc", (nullsP (d = b!"desc") r).1⟩, (nullsP (d = b!"desc") r).2)
      else (⟨y.1, false, (nullsP false (.word d :: r)).1⟩, (nullsP false (.word d :: r)).2)
    | r => (⟨y.1, false, false⟩, r)

/-- In parentheses. -/
def inParens {β : Type} (p : Ps β) : Ps β
  | .punct '(' :: r => (p r).bind close
  | _ => none

def name1 : Ps Tok
  | t :: r => if isName t then some (t, r) else none
  | [] => none

def whereP (n : Nat) : Ps (Option Ex) := opt b!"where" [] (expr n)

def returningP (n : Nat) : Ps (List Ex) := fun ts =>
  (opt b!"returning" [] (listOf (expr n) n) ts).map fun y => (y.1.getD [], y.2)

def orderP (n : Nat) : Ps (List OrderT) := fun ts =>
  (opt b!"order" [b!"by"] (listOf (order1 n) n) ts).map fun y => (y.1.getD [], y.2)

/-- What follows the list of columns of a SELECT. -/
def selectTail (n : Nat) (cols : List Ex) : Ps SelT := fun ts =>
  (after [b!"from"] relation ts).bind fun a =>
  (joins n n a.2).bind fun b =>
  (whereP n b.2).bind fun c =>
  (orderP n c.2).bind fun d =>
  (opt b!"limit" [] (expr n) d.2).bind fun f =>
  (opt b!"offset" [] (expr n) f.2).map fun g =>
    (⟨cols, a.1, b.1, c.1, d.1, f.1, g.1⟩, g.2)

/-- After SELECT. -/
def select (n : Nat) : Ps SelT
  | .word w :: r =>
    if w = b!"from" then selectTail n [] (.word w :: r)
    else (listOf (expr n) n (.word w :: r)).bind fun y => selectTail n y.1 y.2
  | ts => (listOf (expr n) n ts).bind fun y => selectTail n y.1 y.2

/-- After EXISTS. -/
def existsP (n : Nat) (not : Bool) : Ps StT := fun ts =>
  (inParens (after [b!"select"] (select n)) ts).map fun y => (.exists_ not y.1, y.2)

/-- A parenthesis opens. -/
def opens : List Tok → Bool
  | .punct '(' :: _ => true
  | _ => false

def selectStmt (n : Nat) : Ps StT
  | .word w :: r =>
    if w = b!"exists" ∧ opens r then existsP n false r
    else if w = b!"not" then after [b!"exists"] (existsP n true) r
    else (select n (.word w :: r)).map fun y => (.select y.1, y.2)
  | ts => (select n ts).map fun y => (.select y.1, y.2)

/-- A row of values. -/
def row (n : Nat) : Ps (List Ex) := inParens (listOf (expr n) n)

/-- The tokens up to the parenthesis that closes; `d` parentheses are open. -/
def upToClose : Nat → Ps (List Tok)
  | 0, .punct ')' :: r => some ([], r)
  | d + 1, .punct ')' :: r => (upToClose d r).map fun y => (.punct ')' :: y.1, y.2)
  | d, .punct '(' :: r => (upToClose (d + 1) r).map fun y => (.punct '(' :: y.1, y.2)
  | d, t :: r => (upToClose d r).map fun y => (t :: y.1, y.2)
  | _, [] => none

/-- The tokens up to DO, which is left. -/
def upToDo : Ps (List Tok)
  | .word w :: r =>
    if w = b!"do" then some ([], .word w :: r) else (upToDo r).map fun y => (.word w :: y.1, y.2)
  | t :: r => (upToDo r).map fun y => (t :: y.1, y.2)
  | [] => none

def targetP : Ps TargetT
  | .punct '(' :: r =>
    (upToClose 0 r).bind fun y => (opt b!"where" [] upToDo y.2).map fun z => (.index y.1 (z.1.getD []), z.2)
  | .word w :: r =>
    if w = b!"on" then (after [b!"constraint"] name1 r).map fun y => (.constraint y.1, y.2)
    else some (.none, .word w :: r)
  | r => some (.none, r)

/-- `column = value` -/
def set1 (n : Nat) : Ps (Tok × Ex) := fun ts =>
  (name1 ts).bind fun y =>
    match y.2 with
    | .op o :: r => if o = b!"=" then (expr n r).map fun z => ((y.1, z.1), z.2) else none
    | _ => none

/-- After DO. -/
def action (n : Nat) : Ps (List (Tok × Ex))
  | .word w :: r =>
    if w = b!"nothing" then some ([], r) else after [b!"update", b!"set"] (listOf (set1 n) n) (.word w :: r)
  | _ => none

/-- After ON CONFLICT. -/
def conflict (n : Nat) : Ps ConflictT := fun ts =>
  (targetP ts).bind fun y =>
  (after [b!"do"] (action n) y.2).map fun z => (⟨y.1, z.1⟩, z.2)

def names (n : Nat) : Ps (List Tok) := inParens (listOf name1 n)

def overridingP : Ps Bytes
  | .word w :: r => if w = b!"system" ∨ w = b!"user" then after [b!"value"] (fun s => some (w, s)) r else none
  | _ => none

/-- After INSERT INTO. -/
def insertStmt (n : Nat) : Ps StT := fun ts =>
  (relation ts).bind fun a =>
  (names n a.2).bind fun b =>
  (opt b!"overriding" [] overridingP b.2).bind fun c =>
  (after [b!"values"] (listOf (row n) n) c.2).bind fun d =>
  (opt b!"on" [b!"conflict"] (conflict n) d.2).bind fun f =>
  (returningP n f.2).map fun g => (.insert a.1 b.1 c.1 d.1 f.1 g.1, g.2)

def tables (n : Nat) : Ps FromT
  | .punct '(' :: r =>
    (after [b!"values"] (listOf (row n) n) r).bind fun a =>
    (close a).bind fun b =>
    (after [b!"as"] name1 b.2).bind fun c =>
    (names n c.2).map fun d => (.values b.1 c.1 d.1, d.2)
  | ts => (relation ts).bind fun a => (joins n n a.2).map fun b => (.tables a.1 b.1, b.2)

def fromP (n : Nat) (w : Bytes) : Ps FromT := fun ts =>
  (opt w [] (tables n) ts).map fun y => (y.1.getD .none, y.2)

/-- The `=` of SET. -/
def equals {β : Type} (p : Ps β) : Ps β
  | .op o :: r => if o = b!"=" then p r else none
  | _ => none

/-- After UPDATE: as many values as columns are set. One value in parentheses is not a row: one column needs
ROW(...), since version 10. -/
def updateStmt (n : Nat) : Ps StT := fun ts =>
  (relation ts).bind fun a =>
  (after [b!"set"] (names n) a.2).bind fun b =>
  (equals (row n) b.2).bind fun c =>
  if b.1.length ≠ c.1.length ∨ b.1.length = 1 then none else
  (fromP n b!"from" c.2).bind fun d =>
  (whereP n d.2).bind fun f =>
  (returningP n f.2).map fun g => (.update a.1 b.1 c.1 d.1 f.1 g.1, g.2)

/-- After DELETE FROM. -/
def deleteStmt (n : Nat) : Ps StT := fun ts =>
  (relation ts).bind fun a =>
  (fromP n b!"using" a.2).bind fun d =>
  (whereP n d.2).bind fun f =>
  (returningP n f.2).map fun g => (.delete a.1 d.1 f.1 g.1, g.2)

def stmt (n : Nat) : Ps StT
  | .word w :: r =>
    if w = b!"select" then selectStmt n r
    else if w = b!"insert" then after [b!"into"] (insertStmt n) r
    else if w = b!"update" then updateStmt n r
    else if w = b!"delete" then after [b!"from"] (deleteStmt n) r
    else none
  | _ => none

/-- The statement that the tokens are; none if they are no statement. -/
def parse (ts : List Tok) : Option StT :=
  match stmt ts.length ts with
  | some (s, []) => some s
  | _ => none

end Verif.Generator.Gram
