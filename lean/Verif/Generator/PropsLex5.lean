import Verif.Generator.PropsLex4

/- Property C87: examples and counterexamples. -/
namespace Verif.Generator.Lex
open Verif.Analysis Verif.Postgres Print

/-! ### The hypotheses can be met -/

def isIdent (s : Bytes) : Bool :=
  match s with
  | [] => false
  | c :: cs => idStart c && cs.all wordChar

theorem isIdent_iff {s : Bytes} : isIdent s = true ↔ Ident s := by
  cases s with
  | nil => simp [isIdent, Ident]
  | cons c cs =>
    constructor
    · intro h
      simp only [isIdent, Bool.and_eq_true, List.all_eq_true] at h
      exact ⟨c, cs, rfl, by simpa [idStart] using h.1, fun d hd => by simpa [wordChar, or_assoc] using h.2 d hd⟩
    · rintro ⟨c', cs', h, h1, h2⟩
      cases h
      simp only [isIdent, Bool.and_eq_true, List.all_eq_true]
      exact ⟨by simpa [idStart] using h1, fun d hd => by simpa [wordChar, or_assoc] using h2 d hd⟩

/-- A test for `CatPlain`. -/
def catPlain (cat : Catalog) : Bool :=
  cat.types.all (fun t => decide (Whole t.nameFmt)) &&
  cat.rels.all (fun r => r.2.indexes.all fun i => decide (Whole i.predicate) &&
    match parseIndexExpr i.definition with
    | .ok e => decide (Whole e)
    | _ => true) &&
  cat.procs.all fun p => isIdent p.name

theorem mem_of_lookup {α : Type} {k : Bytes} {v : α} : ∀ {l : List (Bytes × α)}, List.lookup k l = some v →
    ∃ k', (k', v) ∈ l
  | [], h => by cases h
  | (k', v') :: l, h => by
    rw [List.lookup_cons] at h
    split at h
    · cases h; exact ⟨k', List.mem_cons_self ..⟩
    · obtain ⟨k'', h⟩ := mem_of_lookup h
      exact ⟨k'', List.mem_cons_of_mem _ h⟩

theorem CatPlain.of {cat : Catalog} (h : catPlain cat = true) : CatPlain cat := by
  simp only [catPlain, Bool.and_eq_true, List.all_eq_true, decide_eq_true_eq] at h
  obtain ⟨⟨h1, h2⟩, h3⟩ := h
  refine ⟨?_, ?_, ?_⟩
  · intro oid t ht
    exact h1 t (List.mem_of_find?_eq_some ht)
  · intro n r hr i hi
    obtain ⟨k, hk⟩ := mem_of_lookup hr
    have := h2 _ hk i hi
    refine ⟨this.1, fun e he => ?_⟩
    have := this.2
    rw [he] at this
    simpa using this
  · intro fn hf
    obtain ⟨p, hp⟩ := List.exists_mem_of_length_pos (Nat.pos_of_ne_zero hf)
    rw [Catalog.procsOf, List.mem_filter] at hp
    have := h3 p hp.1
    rw [isIdent_iff] at this
    simpa [show p.name = fn by simpa using hp.2] using this

/-- The database of the examples, which knows the type of one literal. -/
def litCat : Catalog := { shopCat with litOid := fun s => if s = b!"'it''s'" then some Oid.text else none }

/-- Each slice has two elements. -/
def exWorld : World := { field := fun _ => .nil, slice := fun _ => [.nil, .nil] }

def selectFlds : List Analysis.Field :=
  [relFld (.slice userTy),
   whereOf [sqlFld b!"Ids" [b!"u.id isin"] (.slice Analysis.intTy), sqlFld b!"_" [b!"u.name = 'it''s'"] (gosqlDir b!"Column"),
            sqlFld b!"Name" [b!"u.name", b!"@lower"] strTy]]

/-- The text of the statement when it is sent. -/
def sentText (w : World) (c : Code) : Bytes :=
  let f := fun a => (Generator.slotText w c a).getD []
  stmtText f c.sql.stmt ++ (tailText f c.sql.tail).getD []

/-- An accepted query with a list, a literal with a quote in it and a modified column: the hypotheses of
`C87_accepted` hold, and these are the tokens of the statement. -/
theorem C87_example : ∃ s t c, analyzeQuery env0 [] b!"SelectUsers" selectFlds = .ok s ∧
    checkQuery litCat s.q = .ok t ∧ generate s.q t = some c ∧ CacheNamed [] ∧ CatPlain litCat ∧
    (∀ x ∈ queryTexts s.q, Whole x) ∧
    lex (sentText exWorld c) =
      [.word b!"select", .word b!"u", .punct '.', .name b!"id", .punct ',', .word b!"coalesce", .punct '(',
       .word b!"u", .punct '.', .name b!"name", .punct ',', .str [], .cast, .word b!"text", .punct ')',
       .word b!"from", .name b!"users", .word b!"as", .word b!"u",
       .word b!"where", .word b!"u", .punct '.', .name b!"id", .word b!"in", .punct '(', .param b!"2", .punct ',',
       .param b!"3", .punct ')',
       .word b!"and", .word b!"u", .punct '.', .name b!"name", .op b!"=", .str b!"it's",
       .word b!"and", .word b!"lower", .punct '(', .word b!"u", .punct '.', .name b!"name", .punct ')', .op b!"=",
       .word b!"lower", .punct '(', .param b!"1", .punct ')'] := by
  have h : (match analyzeQuery env0 [] b!"SelectUsers" selectFlds with
    | .ok s => (match checkQuery litCat s.q with
      | .ok t => (generate s.q t).any fun c => (queryTexts s.q).all (fun x => decide (Whole x)) &&
        decide (lex (sentText exWorld c) =
      [.word b!"select", .word b!"u", .punct '.', .name b!"id", .punct ',', .word b!"coalesce", .punct '(',
       .word b!"u", .punct '.', .name b!"name", .punct ',', .str [], .cast, .word b!"text", .punct ')',
       .word b!"from", .name b!"users", .word b!"as", .word b!"u",
       .word b!"where", .word b!"u", .punct '.', .name b!"id", .word b!"in", .punct '(', .param b!"2", .punct ',',
       .param b!"3", .punct ')',
       .word b!"and", .word b!"u", .punct '.', .name b!"name", .op b!"=", .str b!"it's",
       .word b!"and", .word b!"lower", .punct '(', .word b!"u", .punct '.', .name b!"name", .punct ')', .op b!"=",
       .word b!"lower", .punct '(', .param b!"1", .punct ')'])
      | _ => false)
    | _ => false) = true := by decide +kernel
  cases ha : analyzeQuery env0 [] b!"SelectUsers" selectFlds with
  | ok s =>
    rw [ha] at h
    simp only at h
    cases hc : checkQuery litCat s.q with
    | ok t =>
      rw [hc] at h
      obtain ⟨c, hg, hp⟩ := (Option.any_eq_true _ _).1 h
      simp only [Bool.and_eq_true, List.all_eq_true, decide_eq_true_eq] at hp
      exact ⟨s, t, c, rfl, hc, hg, cacheNamed_nil, CatPlain.of (by decide +kernel), hp.1, hp.2⟩
    | err e => rw [hc] at h; cases h
    | panic => rw [hc] at h; cases h
  | err e => rw [ha] at h; cases h
  | panic => rw [ha] at h; cases h

/-- A text of a tag that does not make sense by itself: the rest of the statement would be in a comment. -/
theorem C87_example_comment : ¬ Whole b!"1 --" ∧ ¬ Whole b!"'it" ∧ Whole b!"now() - '1 day'::interval" := by decide

/-! ### The words that are meant -/

/-- The identifiers among the tokens, with the upper-case letters of words folded. -/
def idents : List Tok → List Bytes
  | [] => []
  | .word s :: ts => s :: idents ts
  | .name s :: ts => s :: idents ts
  | _ :: ts => idents ts

/-- **C87** The checker looks at the relation that the statement names if its name has no upper-case letters:
it asks for the name without quotes (postgres.go:1821-1822), and the statement has it in quotes. -/
theorem C87_relation_partial {r : RelIdent} (hq : r.qualifier = [] ∨ Ident r.qualifier) (hn : Ident r.name) :
    idents (lex (qualifiedName r)) = idents (relToks { r with alias := [] }) ↔ lower r.name = r.name := by
  have h0 : ∀ q : Bytes, q = [] ∨ Ident q → lex (qualifiedName { r with qualifier := q }) =
      qualToks q ++ [.word (lower r.name)] := by
    rintro q (rfl | hq)
    · exact (reads_ident hn).lex
    · have hl : q.length > 0 := List.length_pos_iff.2 hq.ne_nil
      have := ((closed_qualifier hq).append_reads (reads_ident hn)).lex
      simp only [qualifiedName, if_pos hl, qualToks]
      simpa using this
  have h1 := h0 r.qualifier hq
  rw [show { r with qualifier := r.qualifier } = r from rfl] at h1
  rw [h1, relToks]
  by_cases hl : r.qualifier.length > 0 <;> simp [qualToks, hl, idents]

/-- In particular for `public.users`. -/
theorem C87_example_relation :
    idents (lex (qualifiedName { qualifier := b!"public", name := b!"users", alias := b!"u" })) =
      [b!"public", b!"users"] := by decide

/-- The database answers `to_regclass('Users')` with the relation `users`. -/
def foldCat : Catalog := { shopCat with rels := (b!"Users", (shopCat.rels.lookup b!"users").getD { columns := [] }) :: shopCat.rels }

/-- **C87** With upper-case letters in its name another relation is checked than the one that the statement
names: the query `rel:"Users:u"` is accepted if there is a relation `users`, and the statement reads `"Users"`,
which need not exist. -/
theorem C87_not_relation : ∃ q t c, Built foldCat q t ∧ generate q t = some c ∧
    idents (lex (qualifiedName q.rel.id)) = [b!"users"] ∧
    .name b!"Users" ∈ lex (sentText exWorld c) ∧ .name b!"users" ∉ lex (sentText exWorld c) := by
  obtain ⟨q, t, c, hb, hc, hp⟩ := code_of (env := env0) (cat := foldCat) (n := b!"SelectUsers")
    (fs := [({ name := b!"Users", tag := [(b!"rel", [b!"Users:u"])] }, .slice userTy)])
    (P := fun q _ c => decide (idents (lex (qualifiedName q.rel.id)) = [b!"users"] ∧
      .name b!"Users" ∈ lex (sentText exWorld c) ∧ .name b!"users" ∉ lex (sentText exWorld c))) (by decide +kernel)
  exact ⟨q, t, c, hb, hc, of_decide_eq_true hp⟩

/-- The key words of PostgreSQL that are reserved: not to be used as the alias of a table (manual, appendix C). -/
def reserved : List Bytes :=
  [b!"all", b!"analyse", b!"analyze", b!"and", b!"any", b!"array", b!"as", b!"asc", b!"asymmetric", b!"both",
   b!"case", b!"cast", b!"check", b!"collate", b!"column", b!"constraint", b!"create", b!"current_catalog",
   b!"current_date", b!"current_role", b!"current_time", b!"current_timestamp", b!"current_user", b!"default",
   b!"deferrable", b!"desc", b!"distinct", b!"do", b!"else", b!"end", b!"except", b!"false", b!"fetch", b!"for",
   b!"foreign", b!"from", b!"grant", b!"group", b!"having", b!"in", b!"initially", b!"intersect", b!"into",
   b!"lateral", b!"leading", b!"limit", b!"localtime", b!"localtimestamp", b!"not", b!"null", b!"offset", b!"on",
   b!"only", b!"or", b!"order", b!"placing", b!"primary", b!"references", b!"returning", b!"select",
   b!"session_user", b!"some", b!"symmetric", b!"table", b!"then", b!"to", b!"trailing", b!"true", b!"union",
   b!"unique", b!"user", b!"using", b!"variadic", b!"when", b!"where", b!"window", b!"with"]

/-- How often the one token is followed by the other. -/
def times (a b : Tok) : List Tok → Nat
  | x :: y :: ts => (if x = a ∧ y = b then 1 else 0) + times a b (y :: ts)
  | _ => 0

/-- **C87** A reserved word is accepted as alias, without quotes in the statement: `rel:"users:user"` gives
`FROM "users" AS user`, which the database refuses. -/
theorem C87_not_alias : ∃ q t c, Built shopCat q t ∧ generate q t = some c ∧ b!"user" ∈ reserved ∧
    q.rel.id.alias = b!"user" ∧ times (.word b!"as") (.word b!"user") (lex (sentText exWorld c)) = 1 := by
  obtain ⟨q, t, c, hb, hc, hp⟩ := code_of (env := env0) (cat := shopCat) (n := b!"SelectUsers")
    (fs := [({ name := b!"Users", tag := [(b!"rel", [b!"users:user"])] }, .slice userTy)])
    (P := fun q _ c => decide (b!"user" ∈ reserved ∧ q.rel.id.alias = b!"user" ∧
      times (.word b!"as") (.word b!"user") (lex (sentText exWorld c)) = 1)) (by decide +kernel)
  exact ⟨q, t, c, hb, hc, of_decide_eq_true hp⟩

/-- **C87** Aliases that differ in case are different to the analysis, which refuses to declare an alias twice,
but not in the statement: `rel:"users:u"` with the join `posts:U` is accepted, and the statement has the
alias `u` twice. -/
theorem C87_not_distinct : ∃ q t c, Built shopCat q t ∧ generate q t = some c ∧ q.rel.id.alias = b!"u" ∧
    (q.join.any fun j => j.directives.any fun d => decide (d.relIdent.alias = b!"U")) = true ∧
    times (.word b!"as") (.word b!"u") (lex (sentText exWorld c)) = 2 := by
  obtain ⟨q, t, c, hb, hc, hp⟩ := code_of (env := env0) (cat := shopCat) (n := b!"SelectUsers")
    (fs := [relFld (.slice userTy), joinFld [b!"posts:U", b!"U.user_id = u.id"]])
    (P := fun q _ c => decide (q.rel.id.alias = b!"u" ∧
      (q.join.any fun j => j.directives.any fun d => decide (d.relIdent.alias = b!"U")) = true ∧
      times (.word b!"as") (.word b!"u") (lex (sentText exWorld c)) = 2)) (by decide +kernel)
  exact ⟨q, t, c, hb, hc, of_decide_eq_true hp⟩

end Verif.Generator.Lex
