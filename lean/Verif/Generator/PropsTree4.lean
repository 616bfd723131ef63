import Verif.Generator.PropsTree3
import Verif.Generator.PropsGram10

/- Property C94: an example and an exception. -/
namespace Verif.Generator.Gram
open Verif.Analysis Verif.Postgres Verif.Generator.Lex Print

/-- The conditions are about the row if the operators have the names that PostgreSQL reads. -/
def rowWorld {V : Type} (D : DbRow V) (ps : List V) (none : V) (field : List Bytes → V) : CondWorld V where
  col c := D.col (colPath c)
  lit s := (treeVal D ps (atomEx (lex s))).getD none
  call f := D.call (lower f)
  op t := D.op (lex t)
  isNull := D.isNull
  truth := D.truth
  elems := D.elems
  field := field

theorem op_lex (o : BinOp) : lex o.text = binToks o := by
  cases o with
  | like n => cases n <;> decide
  | ilike n => cases n <;> decide
  | similar n => cases n <;> decide
  | distinct n => cases n <;> decide
  | _ => decide

/-- For every row there are conditions that are about it. -/
theorem C94_about {V : Type} (D : DbRow V) (ps : List V) (none : V) (field : List Bytes → V) :
    About D ps (rowWorld D ps none field) where
  lit s v _ h := by simp [rowWorld, h]
  call _ := rfl
  op o := by simp only [rowWorld, op_lex]
  isNull := rfl
  truth := rfl
  elems := rfl

/-- A value or an array. -/
inductive Dat where
  | val (v : Val)
  | arr (l : List Val)
deriving DecidableEq

/-- A user; the functions of the database are all like `lower`. -/
def userRow (id age : Int) (name : Bytes) : DbRow Dat where
  col p := if p.getLast? = some (.name b!"id") then .val (.int id)
    else if p.getLast? = some (.name b!"age") then .val (.int age) else .val (.data name)
  const t := match t with
    | .str s => .val (.data s)
    | _ => .val .nil
  fn _ := .val .nil
  call _ x := match x with
    | .val (.data s) => .val (.data (lower s))
    | _ => x
  fn2 _ x _ := x
  op o x y :=
    match x, y with
    | .val (.int a), .val (.int b) => if o = [.op b!">="] then some (b ≤ a) else if o = [.op b!"="] then some (a = b) else none
    | .val (.data a), .val (.data b) => if o = [.op b!"="] then some (a = b) else none
    | _, _ => none
  isNull x := x = .val .nil
  truth _ := none
  elems x := match x with
    | .arr l => l.map .val
    | _ => []
  cast _ x := x
  same x y := x = y
  null := .val .nil

/-- `q.Where.Any.Name` is "Bob", `q.Where.Age` is 18, other fields are 0. -/
def askWorld : World :=
  { field := fun e =>
      if e = .sel (.sel (.sel recv b!"Where") b!"Any") b!"Name" then .data b!"Bob"
      else if e = .sel (.sel recv b!"Where") b!"Age" then .int 18 else .int 0
    slice := fun _ => [.int 7, .int 8] }

def askField (p : List Bytes) : Dat :=
  if p = [b!"q", b!"Where", b!"Ids"] then .arr [.int 7, .int 8]
  else if p = [b!"q", b!"Where", b!"Any", b!"Name"] then .val (.data b!"Bob")
  else if p = [b!"q", b!"Where", b!"Age"] then .val (.int 18) else .val (.int 0)

/-- The values of the fields are right. -/
def fieldsOk (c : Code) : Bool :=
  c.args.all (fun e => decide (askField (goPath e) = .val (eval askWorld.field e))) &&
    c.g.slices.all fun e => decide (askField (goPath e) = .arr (askWorld.slice e))

theorem Fields.of {c : Code} (h : fieldsOk c = true) (id age : Int) (name : Bytes) (ps : List Dat) :
    Fields Dat.val askWorld c (rowWorld (userRow id age name) ps (.val .nil) askField) := by
  unfold fieldsOk at h
  rw [Bool.and_eq_true, List.all_eq_true, List.all_eq_true] at h
  constructor
  · intro e he
    exact of_decide_eq_true (h.1 e he)
  · intro e he
    have := of_decide_eq_true (h.2 e he)
    show (userRow id age name).elems (askField (goPath e)) = _
    rw [this]
    rfl

/-- The literals are no parameters. -/
def noParam : Part → Bool
  | .lit s =>
    match lex s with
    | [.param _] => false
    | _ => true
  | _ => true

/-- Then the conditions fit a database in which casts keep values. -/
theorem C94_fits {V : Type} {D : DbRow V} {ps : List V} {none : V} {field : List Bytes → V} {l : List Part}
    (h : l.all noParam = true) (hc : ∀ t x, D.cast t x = x) : Suits D (rowWorld D ps none field) l := by
  intro p hp
  have := List.all_eq_true.1 h p hp
  cases p with
  | lit s =>
    intro n hn
    simp [noParam, hn] at this
  | col c => rfl
  | cast t => exact hc _

/-- What WHERE is of a user. -/
def ofUser (c : Code) (args : List Val) (id age : Int) (name : Bytes) : Option B3 :=
  ((parse (lex (sentText askWorld c))).bind StT.wher).bind (treeHolds (userRow id age name) (args.map .val))

def sentAsk : List Val := [.data b!"Bob", .int 18, .int 0, .int 7, .int 8]

theorem example_meets : Meets litCat b!"SelectUsers" treeFlds askWorld fun q _ c =>
    decide (isInsertOrUpdateSlice q = false ∧ inUsesFields q = true ∧ q.kind = .select ∧
      (q.wher.any fun w => w.items.length > 0 && wfFrom true w.items && renderedAll w.items) = true ∧
      fieldsOk c = true ∧ (c.sql.stmt.wher.all fun l => (condsParts l).all noParam) = true ∧
      sentArgs q askWorld c = some sentAsk ∧
      ofUser c sentAsk 7 5 b!"eve" = some (some true) ∧ ofUser c sentAsk 1 20 b!"BOB" = some (some true) ∧
      ofUser c sentAsk 1 17 b!"bob" = some (some false) ∧ ofUser c sentAsk 1 20 b!"it's" = some (some true)) :=
  Meets.of (by decide +kernel) (by decide +kernel)

/-- The hypotheses hold of `id IN ($4, $5) OR (lower(name) = lower($1) OR name = 'it''s') AND age >= $2`, and of these
users it is true, true, false and true. -/
theorem C94_example : ∃ s t c x, analyzeQuery env0 [] b!"SelectUsers" treeFlds = .ok s ∧ Plain litCat s.q t ∧
    generate s.q t = some c ∧ CatPlain litCat ∧ (∀ y ∈ queryTexts s.q, Whole y) ∧ InfoFits s.q t ∧ Filled askWorld c ∧
    sentArgs s.q askWorld c = some sentAsk ∧
    (∀ id age name, About (userRow id age name) (sentAsk.map .val)
        (rowWorld (userRow id age name) (sentAsk.map .val) (.val .nil) askField) ∧
      (∀ l, c.sql.stmt.wher = some l → Suits (userRow id age name)
        (rowWorld (userRow id age name) (sentAsk.map .val) (.val .nil) askField) (condsParts l)) ∧
      Fields Dat.val askWorld c (rowWorld (userRow id age name) (sentAsk.map .val) (.val .nil) askField)) ∧
    s.q.wher = some x ∧ x.items ≠ [] ∧ WellFormed x.items ∧ renderedAll x.items = true ∧
    ofUser c sentAsk 7 5 b!"eve" = some (some true) ∧ ofUser c sentAsk 1 20 b!"BOB" = some (some true) ∧
    ofUser c sentAsk 1 17 b!"bob" = some (some false) ∧ ofUser c sentAsk 1 20 b!"it's" = some (some true) := by
  obtain ⟨s, t, c, ha, hk, hg, _, hcat, ht, hi, hw, hp⟩ := example_meets
  obtain ⟨h1, h2, h3, h4, h5, h6, h7, h8⟩ := of_decide_eq_true hp
  obtain ⟨x, hx, h4⟩ := (Option.any_eq_true _ _).1 h4
  simp only [Bool.and_eq_true, decide_eq_true_eq] at h4
  refine ⟨s, t, c, x, ha, ?_, hg, hcat, ht, hi, hw, h7, ?_, hx, ?_, (wfFrom_sound _).1 h4.1.2, h4.2, h8⟩
  · exact { analyzed := ⟨_, _, _, _, s, ha, rfl⟩, checked := hk, one := h1, fields := h2
            keys := fun h => by simp [isUpdateWithPKeys, h3] at h }
  · refine fun id age name => ⟨C94_about _ _ _ _, fun l hl => ?_, Fields.of h5 id age name _⟩
    rw [hl] at h6
    exact C94_fits h6 fun _ _ => rfl
  · intro h
    simp [h] at h4

/-- What the where struct asks of the user, by `C94_where_partial`: the ids are 7 and 8, the name is Bob in any case, the
age 18 or more. -/
theorem C94_example_asked : ∃ s t c x, analyzeQuery env0 [] b!"SelectUsers" treeFlds = .ok s ∧
    checkQuery litCat s.q = .ok t ∧ generate s.q t = some c ∧ s.q.wher = some x ∧
    ∀ id age name, ofUser c sentAsk id age name =
      some (askedAll (rowWorld (userRow id age name) (sentAsk.map .val) (.val .nil) askField) [b!"q", x.fieldName]
        x.items) := by
  obtain ⟨s, t, c, x, ha, h, hg, hcat, ht, hi, hw, hs, hF, hx, h1, h2, h3, _⟩ := C94_example
  refine ⟨s, t, c, x, ha, h.checked, hg, hx, fun id age name => ?_⟩
  obtain ⟨tree, e, hp, he, hv⟩ := C94_where_partial (D := userRow id age name) (sent := Dat.val) cacheNamed_nil ha h hg
    hcat ht hi hw hs (by decide) (hF id age name).2.1 (hF id age name).1
    (hF id age name).2.2 x hx h1 h2 h3
  simp only [ofUser, hp, Option.bind_some, he, hv]

/-- `q.Where.Names` is "BOB". -/
def bobs : World := { field := fun _ => .nil, slice := fun _ => [.data b!"BOB"] }

/-- What WHERE is of the user "bob", and what is asked. -/
def ofBob (c : Code) : Option B3 :=
  ((parse (lex (sentText bobs c))).bind StT.wher).bind (treeHolds (userRow 1 1 b!"bob") [.val (.data b!"BOB")])

def askedOfBob (x : WhereStruct) : B3 :=
  askedAll (rowWorld (userRow 1 1 b!"bob") [.val (.data b!"BOB")] (.val .nil) fun _ => .arr [.data b!"BOB"])
    [b!"q", x.fieldName] x.items

/-- **C94** The condition that PostgreSQL reads is not always the one that is asked for: the function of a tag is not
applied to the values of an IN (generator.go:1349-1370). -/
theorem C94_not_function_in : ∃ q t c x, Built shopCat q t ∧ generate q t = some c ∧ q.wher = some x ∧
    sentArgs q bobs c = some [.data b!"BOB"] ∧ ofBob c = some (some false) ∧ askedOfBob x = some true := by
  obtain ⟨q, t, c, hb, hc, hp⟩ := code_of (env := env0) (cat := shopCat) (n := b!"SelectUsers")
    (fs := [relFld (.slice userTy), whereOf [sqlFld b!"Names" [b!"u.name isin", b!"@norm"] (.slice strTy)]])
    (P := fun q _ c => q.wher.any fun x : WhereStruct => decide (
      sentArgs q bobs c = some [.data b!"BOB"] ∧ ofBob c = some (some false) ∧ askedOfBob x = some true))
    (by decide +kernel)
  obtain ⟨x, hx, hp⟩ := (Option.any_eq_true _ _).1 hp
  exact ⟨q, t, c, x, hb, hc, hx, of_decide_eq_true hp⟩

end Verif.Generator.Gram
