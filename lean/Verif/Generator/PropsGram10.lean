import Verif.Generator.PropsGram9

/- Property C89: examples and counterexamples. -/
namespace Verif.Generator.Gram
open Verif.Analysis Verif.Postgres Verif.Generator.Lex Print

/-! ### A test for the requirements -/

instance (q : Bytes) : Decidable (WordOk q) := by unfold WordOk; infer_instance
instance (r : RelIdent) : Decidable (RelGram r) := by unfold RelGram; infer_instance
instance (fn : Bytes) : Decidable (FuncFits fn) := by unfold FuncFits; infer_instance
instance (c : Column) : Decidable (ColFits c) := by unfold ColFits; infer_instance
instance (r : FieldRead) : Decidable (ReadFits r) := by unfold ReadFits; infer_instance
instance (w : FieldWrite) : Decidable (WriteFits w) := by unfold WriteFits; infer_instance

instance : ∀ r : Rhs, Decidable (RhsGiven r)
  | .none => inferInstanceAs (Decidable False)
  | .column c => inferInstanceAs (Decidable (c ≠ {} ∧ WordOk c.qualifier))
  | .literal s => inferInstanceAs (Decidable (s.length > 0 ∧ AtomText s))

instance (r : Rhs) (quant : Option Quant) : ∀ f : PForm, Decidable (RhsFits r quant f)
  | .binary op => inferInstanceAs (Decidable (RhsGiven r ∧ (quant.isSome = true → quantifiable op = true)))
  | .inList _ => inferInstanceAs (Decidable False)
  | .truth _ _ | .null _ | .bare => inferInstanceAs (Decidable True)

instance (quant : Option Quant) (t : Bytes) : ∀ f : PForm, Decidable (QuantFits quant t f)
  | .binary op => inferInstanceAs (Decidable (quant.isSome = true → quantifiable op = true ∧ TypeText (t ++ b!"[]")))
  | .inList _ | .truth _ _ | .null _ | .bare => inferInstanceAs (Decidable True)

instance : ∀ b : RangeBound, Decidable (BoundFits b)
  | .column c => inferInstanceAs (Decidable (WordOk (rhsCol c.rhs).qualifier))
  | .field _ => inferInstanceAs (Decidable True)

mutual
def decCond : ∀ c : Cond, Decidable (CondFits c)
  | .bool _ => decidable_of_iff False (by rw [CondFits])
  | .nested _ items => @decidable_of_iff _ (CondsFit items) (by rw [CondFits]) (decConds items)
  | .field c => decidable_of_iff (WordOk c.colIdent.qualifier ∧ FuncFits c.func ∧
      QuantFits c.quant c.column.type.nameFmt (predForm c.pred)) (by rw [CondFits])
  | .column c => decidable_of_iff (WordOk c.lhs.qualifier ∧ RhsFits c.rhs c.quant (predForm c.pred)) (by rw [CondFits])
  | .between b => decidable_of_iff (WordOk b.colIdent.qualifier ∧ BoundFits b.lower ∧ BoundFits b.upper)
      (by rw [CondFits])
def decConds : ∀ l : List Cond, Decidable (CondsFit l)
  | [] => decidable_of_iff False (by rw [CondsFit])
  | c :: cs => @decidable_of_iff _ (CondFits c ∧ RestFits cs) (by rw [CondsFit])
      (@instDecidableAnd _ _ (decCond c) (decRest cs))
def decRest : ∀ l : List Cond, Decidable (RestFits l)
  | [] => decidable_of_iff True (by rw [RestFits])
  | .bool _ :: c :: cs => @decidable_of_iff _ (CondFits c ∧ RestFits cs) (by rw [RestFits])
      (@instDecidableAnd _ _ (decCond c) (decRest cs))
  | [.bool _] => decidable_of_iff False (by rw [RestFits] <;> simp)
  | .nested _ _ :: _ => decidable_of_iff False (by rw [RestFits] <;> simp)
  | .field _ :: _ => decidable_of_iff False (by rw [RestFits] <;> simp)
  | .column _ :: _ => decidable_of_iff False (by rw [RestFits] <;> simp)
  | .between _ :: _ => decidable_of_iff False (by rw [RestFits] <;> simp)
end

instance (l : List Cond) : Decidable (CondsFit l) := decConds l

instance (d : JoinDir) (cs : List JoinCond) : Decidable (JoinFits d cs) := by unfold JoinFits; infer_instance

instance decJoins : ∀ (ds : List JoinDir) (cs : List (List JoinCond)), Decidable (JoinsFit ds cs)
  | [], _ => inferInstanceAs (Decidable True)
  | _ :: _, [] => inferInstanceAs (Decidable False)
  | d :: ds, c :: cs => @instDecidableAnd (JoinFits d c) (JoinsFit ds cs) _ (decJoins ds cs)

instance : ∀ c : ConflictTarget, Decidable (TargetGram c)
  | .index e p => inferInstanceAs (Decidable (ParenText e ∧ (p.length > 0 → lex p ≠ []) ∧ (p.length = 0 → lex p = []) ∧
      .word b!"do" ∉ lex p))
  | .constraint _ => inferInstanceAs (Decidable True)

def infoFits (q : Query) (t : TargetInfo) : Bool :=
  decide (RelGram q.rel.id) && (q.join.all fun j => j.relation.all fun r => decide (RelGram r)) &&
  (q.join.all fun j => decide (JoinsFit j.directives t.joins)) &&
  (t.reads.all fun r => decide (ReadFits r)) && (t.writes.all fun w => decide (WriteFits w)) &&
  (t.pkeys.all fun w => decide (WriteFits w)) && decide (t.wher.length = 0 ∨ CondsFit t.wher) &&
  (q.orderBy.all fun l => l.all fun i => decide (WordOk i.colIdent.qualifier)) &&
  (t.conflict.all fun c => c.target.all fun x => decide (TargetGram x)) &&
  decide (q.kind = .insert → t.writes.length ≠ 0) && decide (q.kind = .update → t.writes.length ≥ 2) &&
  decide (isUpdateWithPKeys q = true → t.pkeys.length ≠ 0) &&
  decide (q.kind = .update → q.rel.type.isSlice = true →
    q.join.isNone = true ∧ (t.writes.all fun w => !canUseDefault q w.field) = true)

theorem InfoFits.of {q : Query} {t : TargetInfo} (h : infoFits q t = true) : InfoFits q t := by
  simp only [infoFits, Bool.and_eq_true, decide_eq_true_eq, List.all_eq_true, Option.all_eq_true_iff_get] at h
  obtain ⟨⟨⟨⟨⟨⟨⟨⟨⟨⟨⟨⟨h1, h2⟩, h3⟩, h4⟩, h5⟩, h6⟩, h7⟩, h8⟩, h9⟩, h10⟩, h11⟩, h12⟩, h13⟩ := h
  refine ⟨h1, ?_, ?_, h4, h5, h6, ?_, ?_, ?_, ?_, h11, ?_, ?_⟩
  · intro j r hj hr
    have := h2 (by simp [hj])
    simp only [hj, Option.get_some] at this
    have := this (by simp [hr])
    simpa [hr] using this
  · intro j hj
    have := h3 (by simp [hj])
    simpa only [hj, Option.get_some] using this
  · intro hne
    exact h7.resolve_left (by simpa using hne)
  · intro l hl
    have := h8 (by simp [hl])
    simpa only [hl, Option.get_some] using this
  · intro c x hc hx
    have := h9 (by simp [hc])
    simp only [hc, Option.get_some] at this
    have := this (by simp [hx])
    simpa [hx] using this
  · intro hk
    simpa using h10 hk
  · intro hk
    simpa using h12 hk
  · intro hk hs
    obtain ⟨ha, hb⟩ := h13 hk hs
    refine ⟨by simpa using ha, ?_⟩
    simpa using hb

def filled (w : World) (c : Code) : Bool := c.slots.all fun a => (Generator.slotText w c a).any fun x => decide (x.length ≠ 0)

theorem Filled.of {w : World} {c : Code} (h : filled w c = true) : Filled w c := by
  intro a ha
  have := List.all_eq_true.1 h a ha
  obtain ⟨x, hx, hne⟩ := (Option.any_eq_true _ _).1 this
  exact ⟨x, hx, by simpa using hne⟩

/-! ### Examples -/

/-- An accepted query that meets the requirements of `C89_accepted` or `C89_records`, but for the kind of query. -/
def Meets (cat : Catalog) (n : Bytes) (fs : List Analysis.Field) (w : World) (P : Query → TargetInfo → Code → Bool) : Prop :=
  ∃ s t c, analyzeQuery env0 [] n fs = .ok s ∧ checkQuery cat s.q = .ok t ∧ generate s.q t = some c ∧ CacheNamed [] ∧
    CatPlain cat ∧ (∀ x ∈ queryTexts s.q, Whole x) ∧ InfoFits s.q t ∧ Filled w c ∧ P s.q t c = true

theorem Meets.of {cat : Catalog} {n : Bytes} {fs : List Analysis.Field} {w : World}
    {P : Query → TargetInfo → Code → Bool} (hc : catPlain cat = true)
    (h : (match analyzeQuery env0 [] n fs with
      | .ok s => (match checkQuery cat s.q with
        | .ok t => (generate s.q t).any fun c => (queryTexts s.q).all (fun x => decide (Whole x)) && infoFits s.q t &&
            filled w c && P s.q t c
        | _ => false)
      | _ => false) = true) : Meets cat n fs w P := by
  cases ha : analyzeQuery env0 [] n fs with
  | ok s =>
    rw [ha] at h
    simp only at h
    cases hk : checkQuery cat s.q with
    | ok t =>
      rw [hk] at h
      obtain ⟨c, hg, hp⟩ := (Option.any_eq_true _ _).1 h
      simp only [Bool.and_eq_true, List.all_eq_true, decide_eq_true_eq] at hp
      exact ⟨s, t, c, ha, hk, hg, cacheNamed_nil, CatPlain.of hc, hp.1.1.1, InfoFits.of hp.1.1.2, Filled.of hp.1.2, hp.2⟩
    | err e => rw [hk] at h; cases h
    | panic => rw [hk] at h; cases h
  | err e => rw [ha] at h; cases h
  | panic => rw [ha] at h; cases h

/-- A field with the given tag and the given word before it. -/
def boolFld (n : Bytes) (tag : List Bytes) (word : Bytes) (t : Ty) : Analysis.Field :=
  ({ name := n, tag := [(b!"sql", tag), (b!"bool", [word])] }, t)

/-- A join, a list, OR, a nested struct, an order and a limit. -/
def treeFlds : List Analysis.Field :=
  [relFld (.slice userTy), joinFld [b!"posts:p", b!"p.user_id = u.id"],
   whereOf
     [sqlFld b!"Ids" [b!"u.id isin"] (.slice Analysis.intTy),
      boolFld b!"Any" [b!">"] b!"or" (.struct (.ofList
        [sqlFld b!"Name" [b!"u.name", b!"@lower"] strTy,
         boolFld b!"_" [b!"u.name = 'it''s'"] b!"or" (gosqlDir b!"Column")])),
      sqlFld b!"Age" [b!"u.age >="] Analysis.intTy],
   dirFld b!"OrderBy" [b!"-u.id"], sqlFld b!"Limit" [b!"10"] Analysis.intTy]

/-- The column `n` of the table with the alias `q`. -/
def exCol (q n : Bytes) : Ex := .col [.word q, .name n]

/-- What `treeFlds` means. -/
def treeOf : StT :=
  .select
    { cols := [exCol b!"u" b!"id", .call b!"coalesce" [exCol b!"u" b!"name", .cast (.const (.str [])) [.word b!"text"]]]
      rel := ⟨[.name b!"users"], some (.word b!"u")⟩
      joins := [⟨b!"left", ⟨[.name b!"posts"], some (.word b!"p")⟩,
        some (.op b!"=" (exCol b!"p" b!"user_id") (exCol b!"u" b!"id"))⟩]
      wher := some
        (.or (.isIn false (exCol b!"u" b!"id") [.const (.param b!"4"), .const (.param b!"5")])
          (.and
            (.or
              (.op b!"=" (.call b!"lower" [exCol b!"u" b!"name"]) (.call b!"lower" [.const (.param b!"1")]))
              (.op b!"=" (exCol b!"u" b!"name") (.const (.str b!"it's"))))
            (.op b!">=" (exCol b!"u" b!"age") (.const (.param b!"2")))))
      order := [⟨exCol b!"u" b!"id", true, false⟩]
      limit := some (.const (.param b!"3"))
      offset := none }

/-- An accepted query that meets the requirements, and the tree that its statement is parsed as. -/
theorem C89_example : Meets litCat b!"SelectUsers" treeFlds exWorld fun q _ c =>
    decide (q.filter.isNone = true ∧ isInsertOrUpdateSlice q = false ∧ parse (lex (sentText exWorld c)) = some treeOf) :=
  Meets.of (by decide +kernel) (by decide +kernel)

/-- Two records. -/
def twoRecords : World := { field := fun _ => .nil, records := [fun _ => .nil, fun _ => .nil] }

/-- The statement for the records. -/
def recordsText (w : World) (c : Code) : Bytes :=
  let f := fun a => (Generator.slotText w c a).getD []
  (recordText w c (stmtText f c.sql.stmt) (tailText f c.sql.tail)).getD []

/-- An accepted update of two records, and the tree that its statement is parsed as. -/
theorem C89_example_records : Meets litCat b!"UpdateUsers" [relFld (.slice userTy)] twoRecords fun q _ c =>
    decide (isInsertOrUpdateSlice q = true ∧ parse (lex (recordsText twoRecords c)) = some
      (.update ⟨[.name b!"users"], some (.word b!"u")⟩ [.name b!"id", .name b!"name"]
        [exCol b!"x" b!"id", exCol b!"x" b!"name"]
        (.values
          [[.cast (.const (.param b!"1")) [.word b!"integer"],
            .cast (.call b!"nullif" [.const (.param b!"2"), .const (.str [])]) [.word b!"text"]],
           [.cast (.const (.param b!"3")) [.word b!"integer"],
            .cast (.call b!"nullif" [.const (.param b!"4"), .const (.str [])]) [.word b!"text"]]]
          (.word b!"x") [.name b!"id", .name b!"name"])
        (some (.op b!"=" (exCol b!"u" b!"id") (.cast (exCol b!"x" b!"id") [.word b!"integer"]))) [])) :=
  Meets.of (by decide +kernel) (by decide +kernel)

/-! ### Statements that are refused -/

/-- The statement of the accepted query has no place in the grammar. -/
def Refused (n : Bytes) (fs : List Analysis.Field) : Prop := ∃ q t c, pipeline env0 shopCat n fs = some (q, t, some c) ∧
  Whole (sentText exWorld c) ∧ parse (lex (sentText exWorld c)) = none

theorem Refused.of {n : Bytes} {fs : List Analysis.Field}
    (h : (pipeline env0 shopCat n fs).any (fun x => x.2.2.any fun c => decide (Whole (sentText exWorld c)) &&
      (parse (lex (sentText exWorld c))).isNone) = true) : Refused n fs := by
  obtain ⟨⟨q, t, g⟩, hx, hp⟩ := (Option.any_eq_true _ _).1 h
  obtain ⟨c, hc, hp⟩ := (Option.any_eq_true _ _).1 hp
  simp only [Bool.and_eq_true, decide_eq_true_eq, Option.isNone_iff_eq_none] at hp
  simp only at hc
  exact ⟨q, t, c, hc ▸ hx, hp.1, hp.2⟩

/-- A record with one column, written to or only read. -/
def oneColTy (opts : List Bytes) : Ty :=
  .named { name := b!"User", pkg := some { path := b!"p", name := b!"p" } }
    (.struct (.ofList [({ name := b!"Name", tag := [(b!"sql", b!"name" :: opts)] }, strTy)]))

/-- The joins of a select. -/
def joinsFld (l : List Analysis.Field) : Analysis.Field := ({ name := b!"Join" }, .struct (.ofList l))

/-- **C89** A LEFT JOIN without conditions is accepted, and so is a CROSS JOIN with conditions: PostgreSQL refuses
both. -/
theorem C89_not_join :
    Refused b!"SelectUsers" [relFld (.slice userTy), joinsFld [dirFld b!"LeftJoin" [b!"posts:p"]]] ∧
    Refused b!"SelectUsers" [relFld (.slice userTy), joinsFld [dirFld b!"CrossJoin" [b!"posts:p", b!"p.user_id = u.id"]]] :=
  ⟨Refused.of (by decide +kernel), Refused.of (by decide +kernel)⟩

/-- **C89** A nested struct without conditions is accepted and becomes `()`. -/
theorem C89_not_nested : Refused b!"SelectUsers"
    [relFld (.slice userTy), whereOf [sqlFld b!"G" [b!">"] (.struct (.ofList []))]] := Refused.of (by decide +kernel)

/-- **C89** A quantifier is accepted with IS DISTINCT FROM (enums.go:394 allows it with every binary operator
and every pattern), with which PostgreSQL knows none. -/
theorem C89_not_quantifier : Refused b!"SelectUsers"
    [relFld (.slice userTy), whereOf [sqlFld b!"_" [b!"u.id isdistinct any u.tags"] (gosqlDir b!"Column")]] :=
  Refused.of (by decide +kernel)

/-- **C89** An update that sets one column becomes `SET ("name") = (…)`; since version 10 PostgreSQL asks for ROW
in front of the value then. -/
theorem C89_not_one_column : Refused b!"UpdateUser"
    [relFld (.ptr (oneColTy [])), whereOf [sqlFld b!"Id" [b!"u.id"] Analysis.intTy]] := Refused.of (by decide +kernel)

/-- **C89** A record without columns to be written is accepted: the lists of columns and values of the INSERT and the
UPDATE are empty. -/
theorem C89_not_columns :
    Refused b!"InsertUser" [relFld (.ptr (oneColTy [b!"ro"]))] ∧
    Refused b!"UpdateUser" [relFld (.ptr (oneColTy [b!"ro"])), whereOf [sqlFld b!"Id" [b!"u.id"] Analysis.intTy]] :=
  ⟨Refused.of (by decide +kernel), Refused.of (by decide +kernel)⟩

/-- **C89** IN with a column is accepted: the list is empty. -/
theorem C89_not_in : Refused b!"SelectUsers"
    [relFld (.slice userTy), whereOf [sqlFld b!"_" [b!"u.id isin u.tags"] (gosqlDir b!"Column")]] :=
  Refused.of (by decide +kernel)

/-- **C89** An alias that is a reserved word is accepted. -/
theorem C89_not_alias : Refused b!"SelectUsers"
    [({ name := b!"Users", tag := [(b!"rel", [b!"users:user"])] }, .slice userTy)] := Refused.of (by decide +kernel)

/-- The slices are empty. -/
def emptySlices : World := { field := fun _ => .nil, slice := fun _ => [] }

/-- **C89** With an empty slice the list after IN is empty, which PostgreSQL refuses. -/
theorem C89_not_empty_list : ∃ q t c, Built shopCat q t ∧ generate q t = some c ∧
    parse (lex (sentText emptySlices c)) = none ∧ (parse (lex (sentText exWorld c))).isSome = true := by
  obtain ⟨q, t, c, hb, hc, hp⟩ := code_of (env := env0) (cat := shopCat) (n := b!"SelectUsers")
    (fs := [relFld (.slice userTy), whereOf [sqlFld b!"Ids" [b!"u.id isin"] (.slice Analysis.intTy)]])
    (P := fun _ _ c => decide (parse (lex (sentText emptySlices c)) = none ∧
      (parse (lex (sentText exWorld c))).isSome = true)) (by decide +kernel)
  exact ⟨q, t, c, hb, hc, of_decide_eq_true hp⟩

/-- **C89** An update of many records with another table is accepted, but there is no comma between the table and
the values. -/
theorem C89_not_many : ∃ q t c, Built shopCat q t ∧ generate q t = some c ∧
    Whole (recordsText twoRecords c) ∧ parse (lex (recordsText twoRecords c)) = none := by
  obtain ⟨q, t, c, hb, hc, hp⟩ := code_of (env := env0) (cat := shopCat) (n := b!"UpdateUsers")
    (fs := [relFld (.slice userTy), ({ name := b!"From" }, .struct (.ofList [dirFld b!"Relation" [b!"posts:p"]]))])
    (P := fun _ _ c => decide (Whole (recordsText twoRecords c) ∧ parse (lex (recordsText twoRecords c)) = none))
    (by decide +kernel)
  exact ⟨q, t, c, hb, hc, of_decide_eq_true hp⟩

/-- The database of the examples with a column of type boolean, which knows the type of one literal. -/
def boolCat : Catalog :=
  { shopCat with
    types := { oid := Oid.bool, nameFmt := b!"boolean", category := 'B' } :: shopCat.types
    litOid := fun s => if s = b!"true OR true" then some Oid.bool else none
    rels := [(b!"users", { columns := [{ num := 1, name := b!"id", typeOid := Oid.int4 },
                                       { num := 2, name := b!"name", typeOid := Oid.text },
                                       { num := 3, name := b!"active", typeOid := Oid.bool }] })] }

/-- The condition of a SELECT. -/
def condOf : Option StT → Option Ex
  | some (.select s) => s.wher
  | _ => none

/-- **C89** A literal is put into the statement as it is: with `true OR true`, which is one for the checks
(postgres.go:2036 asks the database for its type), the one condition becomes two, and every row is selected. -/
theorem C89_not_literal : ∃ q t c, Built boolCat q t ∧ generate q t = some c ∧ t.wher.length = 1 ∧
    condOf (parse (lex (sentText exWorld c))) = some
      (.or (.op b!"=" (exCol b!"u" b!"active") (.const (.word b!"true"))) (.const (.word b!"true"))) := by
  obtain ⟨q, t, c, hb, hc, hp⟩ := code_of (env := env0) (cat := boolCat) (n := b!"SelectUsers")
    (fs := [relFld (.slice userTy), whereOf [sqlFld b!"_" [b!"u.active = true OR true"] (gosqlDir b!"Column")]])
    (P := fun _ t c => decide (t.wher.length = 1 ∧ condOf (parse (lex (sentText exWorld c))) = some
      (.or (.op b!"=" (exCol b!"u" b!"active") (.const (.word b!"true"))) (.const (.word b!"true"))))) (by decide +kernel)
  exact ⟨q, t, c, hb, hc, of_decide_eq_true hp⟩

end Verif.Generator.Gram
