import Verif.Generator.PropsTreeDb3
import Verif.Generator.PropsTree4
import Verif.Generator.PropsDb6

/- Property C95: examples and an exception. -/
namespace Verif.Generator.Gram
open Verif.Analysis Verif.Postgres Verif.Generator.Lex Print

/-- Values are texts, and so are literals.  The tables are those of `shopCat`, with 99 as the next id. -/
def tshop : TServer Bytes where
  const t := match t with
    | .str s => some s
    | .num s => some s
    | .word w => if w = b!"null" then none else some w
    | _ => none
  fn _ := none
  call _ v := v
  fn2 _ _ v := v
  cast _ v := v
  op o a b :=
    match a, b with
    | some x, some y =>
      if o = [.op b!"="] then some (decide (x = y))
      else if o = [.op b!">"] then some (decide (textNum y < textNum x)) else none
    | _, _ => none
  truth v := v.map fun b => decide (b = b!"true")
  elems _ := []
  has t n := (t = ([], b!"users") && decide (n ∈ [b!"id", b!"name", b!"age", b!"tags"])) ||
    (t = ([], b!"posts") && decide (n ∈ [b!"id", b!"user_id"])) || (t = ([], b!"Items") && decide (n ∈ [b!"id", b!"name"]))
  default t n :=
    if n = b!"id" then some b!"99" else if t.2 = b!"users" ∧ n = b!"age" then some b!"18" else none
  le x y := decide (textNum x ≤ textNum y)
  nat := textNum
  ofNat n := Nat.toDigits 10 n
  ofBool b := if b then b!"true" else b!"false"
  clash _ _ a b := a b!"id" = b b!"id"

theorem tshop_sane {α : Type} (s : Stmt α) : Sane tshop s where
  nat n := by
    show some (textNum (itoa n)) = some n
    have := Nat.ofDigitChars_toDigits (b := 10) (n := n) (by decide) (by decide)
    rw [Nat.ofDigitChars_eq_foldl] at this
    exact congrArg some this
  casts _ _ _ := rfl

/-- The texts are as required. -/
def plainPart : Part → Bool
  | .lit s =>
    match lex s with
    | [.param _] => false
    | _ => true
  | .col c => decide (lower c.qualifier = c.qualifier)
  | .cast _ => true

theorem plainPart_plain {p : Part} (h : plainPart p = true) : p.Plain := by
  cases p with
  | lit s =>
    intro n hn
    simp [plainPart, hn] at h
  | col c =>
    rw [plainPart, decide_eq_true_eq] at h
    exact h
  | cast t => trivial

def spelled {α : Type} (s : Stmt α) : Bool :=
  ((stmtRels s).all fun r => decide (lower r.qualifier = r.qualifier ∧ lower r.alias = r.alias)) &&
    (stmtParts s).all plainPart && (!hasConflict s || decide (knownAs (insertInto s) ≠ b!"excluded"))

theorem Spelled.of {α : Type} {s : Stmt α} (h : spelled s = true) : Spelled s := by
  simp only [spelled, Bool.and_eq_true, List.all_eq_true, decide_eq_true_eq, Bool.or_eq_true, Bool.not_eq_true'] at h
  obtain ⟨⟨h1, h2⟩, h3⟩ := h
  refine ⟨h1, fun p hp => plainPart_plain (h2 p hp), fun hc => ?_⟩
  · rcases h3 with h3 | h3
    · rw [h3] at hc
      cases hc
    · exact h3

/-- The fields have the values that the example says. -/
def shopWorld (id name : Bytes) : World :=
  { field := fun e => match shopFields id name (goPath e) with
      | some b => .data b
      | none => .nil }

/-- How the database takes values. -/
def asValue : Val → Option Bytes
  | .int n => some (Nat.toDigits 10 n.toNat)
  | .data b => some b
  | _ => none

/-- The hypotheses that can be decided. -/
def sentCheck (w : World) (field : Generator.Fields Bytes) (q : Query) (t : TargetInfo) (c : Code) (args : List Val) : Bool :=
  plainCheck q t && toldCheck q && spelled c.sql.stmt && q.filter.isNone &&
    decide (sentArgs q w c = some args ∧ args.length ≤ 65535 ∧
      c.args.map (fun e => field (goPath e)) = args.map asValue ∧ c.g.slices.length = 0)

theorem Sent.of {cat : Catalog} {n : Bytes} {fs : List Analysis.Field} {w : World} {field : Generator.Fields Bytes}
    {args : List Val} {P : Query → TargetInfo → Code → Bool}
    (h : Meets cat n fs w fun q t c => sentCheck w field q t c args && P q t c) :
    ∃ q t c, Sent tshop asValue cat q t c w args field ∧ P q t c = true := by
  obtain ⟨s, t, c, ha, hk, hg, hc, hcat, ht, hi, hw, hp⟩ := h
  simp only [Bool.and_eq_true, sentCheck] at hp
  obtain ⟨⟨⟨⟨⟨h1, h2⟩, h3⟩, h4⟩, h5⟩, hp⟩ := hp
  obtain ⟨h6, h7, h8, h9⟩ := of_decide_eq_true h5
  simp only [plainCheck, Bool.and_eq_true, Bool.not_eq_true', decide_eq_true_eq] at h1
  have hA : ∃ env cache n fs s', CacheNamed cache ∧ analyzeQuery env cache n fs = .ok s' ∧ s'.q = s.q :=
    ⟨env0, [], n, fs, s, hc, ha, rfl⟩
  refine ⟨s.q, t, c, ?_, hp⟩
  exact {
    plain := { analyzed := ⟨_, _, _, _, s, ha, rfl⟩, checked := hk, one := h1.1.1, fields := h1.1.2, keys := fun _ => h1.2 }
    accepted := hA
    code := hg
    catalog := hcat
    texts := ht
    infos := hi
    noFilter := Option.isNone_iff_eq_none.1 h4
    filled := hw
    told := told_of h2
    sends := h6
    max := h7
    spelled := .of h3
    sane := tshop_sane _
    given := {
      arg := fun k e he => by
        rw [← h8, List.getElem?_map, he]
        rfl
      slice := fun e he => by
        rw [List.length_eq_zero_iff.1 h9] at he
        cases he } }

/-! ### Examples -/

/-- The users older than 25, by id, at most 10. -/
theorem C95_example_select : ∃ q t c args tree,
    Sent tshop asValue shopCat q t c (shopWorld [] []) args (shopFields [] []) ∧ q.kind = .select ∧
    parse (lex (sentText (shopWorld [] []) c)) = some tree ∧
    tshop.Does (args.map asValue) shopTables shopTables [[some b!"2", some []], [some b!"7", some b!"bob"]]
      tree := by
  obtain ⟨q, t, c, h, hp⟩ := Sent.of (cat := shopCat) (n := b!"SelectUsers") (w := shopWorld [] [])
    (fs := [relFld (.slice userTy), whereOf [ageFld], dirFld b!"OrderBy" [b!"u.id"], dirFld b!"Limit" [b!"10"]])
    (field := shopFields [] []) (args := [.data b!"25"])
    (P := fun q t _ => decide (q.kind = .select ∧
      ((tshop.server.askedRows (shopFields [] []) shopTables q).reverse.Pairwise fun a b =>
        tshop.server.askedOrder q a b = true) ∧
      (window (tshop.server.askedLimit (shopFields [] []) q) (tshop.server.askedOffset (shopFields [] []) q)
        (tshop.server.askedRows (shopFields [] []) shopTables q).reverse).map
          (fun j => t.reads.map (tshop.server.readField j)) =
        [[some b!"2", some []], [some b!"7", some b!"bob"]]))
    (Meets.of (by decide +kernel) (by decide +kernel))
  obtain ⟨h1, h2, h3⟩ := of_decide_eq_true hp
  obtain ⟨tree, ht, hd⟩ := C95_select_partial h h1
  exact ⟨q, t, c, _, tree, h, h1, ht, (hd _ _ _).2 ⟨rfl, _, List.reverse_perm _, h2, h3.symm⟩⟩

/-- Bob gets the name "x", by the key of the record. -/
theorem C95_example_update : ∃ q t c args tree,
    Sent tshop asValue shopCat q t c (shopWorld b!"7" b!"x") args (shopFields b!"7" b!"x") ∧ q.kind = .update ∧
    parse (lex (sentText (shopWorld b!"7" b!"x") c)) = some tree ∧
    ∃ T' out, tshop.Does (args.map asValue) shopTables T' out tree ∧
      Generator.cells (T' users) = [[some b!"7", some b!"x", some b!"40"], [some b!"5", some b!"ann", some b!"20"],
        [some b!"2", none, some b!"30"]] := by
  obtain ⟨q, t, c, h, hp⟩ := Sent.of (cat := shopCat) (n := b!"UpdateUser") (w := shopWorld b!"7" b!"x")
    (fs := [relFld (.ptr userTy)])
    (field := shopFields b!"7" b!"x") (args := [.data b!"7", .data b!"x"])
    (P := fun q t _ => decide (q.kind = .update ∧ q.join.isNone = true ∧ t.pkeys.length ≠ 0 ∧ tableOf q.rel.id = users ∧
      Generator.cells ((shopTables users).map fun r =>
        if tshop.server.askedTarget (shopFields b!"7" b!"x") q t [(q.rel.id, r)] then
          tshop.server.recordOver (fun w => shopFields b!"7" b!"x" (recordPath q w.field)) q t r else r) =
        [[some b!"7", some b!"x", some b!"40"], [some b!"5", some b!"ann", some b!"20"],
          [some b!"2", none, some b!"30"]]))
    (Meets.of (by decide +kernel) (by decide +kernel))
  obtain ⟨h1, h2, h3, h4, h5⟩ := of_decide_eq_true hp
  obtain ⟨tree, ht, hd⟩ := C95_update_partial h h1 (Option.isNone_iff_eq_none.1 h2)
    fun _ e => h3 (by rw [e]; rfl)
  refine ⟨q, t, c, _, tree, h, h1, ht, _, _, (hd _ _ _).2 ⟨rfl, rfl⟩, ?_⟩
  rw [h4, ← h5]
  simp [setTable]

/-- A user is inserted. -/
theorem C95_example_insert : ∃ q t c args tree,
    Sent tshop asValue shopCat q t c (shopWorld b!"8" b!"x") args (shopFields b!"8" b!"x") ∧ q.kind = .insert ∧
    parse (lex (sentText (shopWorld b!"8" b!"x") c)) = some tree ∧
    ∃ T' out, tshop.Does (args.map asValue) shopTables T' out tree ∧
      Generator.cells (T' users) = Generator.cells (shopTables users) ++ [[some b!"8", some b!"x", some b!"18"]] := by
  obtain ⟨q, t, c, h, hp⟩ := Sent.of (cat := shopCat) (n := b!"InsertUser") (w := shopWorld b!"8" b!"x")
    (fs := [relFld (.ptr userTy)])
    (field := shopFields b!"8" b!"x") (args := [.data b!"8", .data b!"x"])
    (P := fun q t _ => decide (q.kind = .insert ∧ t.conflict.isNone = true ∧ tableOf q.rel.id = users ∧
      Generator.cells [tshop.server.recordRow (fun w => shopFields b!"8" b!"x" (recordPath q w.field)) q t] =
        [[some b!"8", some b!"x", some b!"18"]]))
    (Meets.of (by decide +kernel) (by decide +kernel))
  obtain ⟨h1, h2, h3, h4⟩ := of_decide_eq_true hp
  obtain ⟨tree, ht, hd⟩ := C95_insert h h1
  rw [Option.isNone_iff_eq_none] at h2
  rw [h2] at hd
  refine ⟨q, t, c, _, tree, h, h1, ht, _, _, (hd _ _ _).2 ⟨rfl, rfl⟩, ?_⟩
  rw [h3, ← h4]
  simp [setTable, Generator.cells]

/-- The users older than 25 are deleted. -/
theorem C95_example_delete : ∃ q t c args tree,
    Sent tshop asValue shopCat q t c (shopWorld [] []) args (shopFields [] []) ∧ q.kind = .delete ∧
    parse (lex (sentText (shopWorld [] []) c)) = some tree ∧
    ∃ T' out, tshop.Does (args.map asValue) shopTables T' out tree ∧
      Generator.cells (T' users) = [[some b!"5", some b!"ann", some b!"20"]] := by
  obtain ⟨q, t, c, h, hp⟩ := Sent.of (cat := shopCat) (n := b!"DeleteUser") (w := shopWorld [] [])
    (fs := [relOnly, whereOf [ageFld]])
    (field := shopFields [] []) (args := [.data b!"25"])
    (P := fun q t _ => decide (q.kind = .delete ∧ q.join.isNone = true ∧ tableOf q.rel.id = users ∧
      Generator.cells ((shopTables users).filter fun r =>
        !tshop.server.askedRow (shopFields [] []) q [(q.rel.id, r)]) = [[some b!"5", some b!"ann", some b!"20"]]))
    (Meets.of (by decide +kernel) (by decide +kernel))
  obtain ⟨h1, h2, h3, h4⟩ := of_decide_eq_true hp
  obtain ⟨tree, ht, hd⟩ := C95_tree h
  rw [Option.isNone_iff_eq_none] at h2
  refine ⟨q, t, c, _, tree, h, h1, ht, _, _, (hd _ _ _).2
    ((C81_delete_alone_partial tshop.server h.plain h.told h1 h2 h.code _ _ _ _).2 ⟨rfl, rfl⟩), ?_⟩
  rw [h3, ← h4]
  simp [setTable]

/-! ### An exception -/

/-- The database of the examples with a table that has a capital letter. -/
def itemsCat : Catalog :=
  { shopCat with rels := (b!"Items", { columns := [{ num := 1, name := b!"id", typeOid := Oid.int4 },
                                                    { num := 2, name := b!"name", typeOid := Oid.text }] }) :: shopCat.rels }

/-- Items 7 and 5. -/
def itemTables : Tables Bytes := fun _ => [Generator.userRow b!"7" (some b!"pen") [], Generator.userRow b!"5" (some b!"ink") []]

/-- The rows that the statement as it is read finds. -/
def foundItems (c : Code) : Option (List (List (Option Bytes))) :=
  match parse (lex (sentText (shopWorld [] []) c)) with
  | some (.select s) => some (Generator.cells ((tshop.found [some b!"5"] itemTables s).flatMap (·.map (·.2))))
  | _ => none

/-- **C95** A table with a capital letter is accepted without alias, and its columns as `Items.id`.  The table is quoted,
the qualifier of the column is not: PostgreSQL reads it as `items`, and there is no table with that name in the
statement.  The item with the id 5 is asked for, and is not found (PostgreSQL reports an error). -/
theorem C95_not_capital : ∃ q t c, Built itemsCat q t ∧ generate q t = some c ∧
    condOf (parse (lex (sentText (shopWorld [] []) c))) =
      some (.op b!"=" (.col [.word b!"items", .name b!"id"]) (.const (.param b!"1"))) ∧
    sentArgs q (shopWorld [] []) c = some [.data b!"5"] ∧
    Generator.cells ((tshop.server.askedRows (shopFields [] []) itemTables q).flatMap (·.map (·.2))) =
      [[some b!"5", some b!"ink", some []]] ∧
    foundItems c = some [] := by
  obtain ⟨q, t, c, hb, hc, hp⟩ := code_of (env := env0) (cat := itemsCat) (n := b!"SelectUsers")
    (fs := [({ name := b!"Users", tag := [(b!"rel", [b!"Items"])] }, .slice userTy),
      whereOf [sqlFld b!"Id" [b!"Items.id"] Analysis.intTy]])
    (P := fun q _ c => decide (condOf (parse (lex (sentText (shopWorld [] []) c))) =
        some (.op b!"=" (.col [.word b!"items", .name b!"id"]) (.const (.param b!"1"))) ∧
      sentArgs q (shopWorld [] []) c = some [.data b!"5"] ∧
      Generator.cells ((tshop.server.askedRows (shopFields [] []) itemTables q).flatMap (·.map (·.2))) =
        [[some b!"5", some b!"ink", some []]] ∧
      foundItems c = some [])) (by decide +kernel)
  exact ⟨q, t, c, hb, hc, of_decide_eq_true hp⟩

end Verif.Generator.Gram
