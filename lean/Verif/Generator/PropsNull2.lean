import Verif.Generator.PropsNull
import Verif.Generator.PropsMeaning3

/- C66: examples and exceptions. -/
namespace Verif.Generator
open Verif.Analysis Verif.Postgres

/-- A world whose values are the texts of literals. -/
def texts : SqlWorld Bytes := { lit := some, cast := fun _ v => v }

/-- The values of a row in which every column is NULL. -/
def nullRow (c : Code) : List (Option Bytes) := (returned c).map (texts.val (fun _ => none) fun _ => none)

/-- The hypotheses of C66_read and C66_no_null_partial hold for a select of users: the nullable name is read into a string as
`COALESCE(u.name, ''::text)`, the id as it is. -/
theorem C66_example : ∃ q t c, Built shopCat q t ∧ isSelectCountOrExists q = false ∧
    q.isSliceUpdate = false ∧ generate q t = some c ∧
    (∃ r, t.reads[1]? = some r ∧ ¬ TakesNull r ∧ nullableColumn r.column ∧ standIn r = some b!"''") ∧
    returned c = [.col ⟨b!"u", b!"id"⟩,
      .coalesce (.col ⟨b!"u", b!"name"⟩) (.cast (.lit b!"''") b!"text")] ∧
    nullRow c = [none, some b!"''"] := by
  obtain ⟨q, t, c, hb, hc, hp⟩ := code_of (env := env0) (cat := shopCat) (n := b!"SelectUsers")
    (fs := [relFld (.slice userTy)])
    (P := fun q t c => decide (isSelectCountOrExists q = false ∧ q.isSliceUpdate = false ∧
      (t.reads[1]?.any fun r => r.needsCoalesce && !r.field.useCoalesce && decide (standIn r = some b!"''")) = true ∧
      returned c = [.col ⟨b!"u", b!"id"⟩,
        .coalesce (.col ⟨b!"u", b!"name"⟩) (.cast (.lit b!"''") b!"text")] ∧
      nullRow c = [none, some b!"''"])) (by decide +kernel)
  obtain ⟨h1, h2, h3, h4, h5⟩ := of_decide_eq_true hp
  obtain ⟨r, hr, h3⟩ := (Option.any_eq_true _ _).1 h3
  simp only [Bool.and_eq_true, decide_eq_true_eq, Bool.not_eq_true'] at h3
  have := (needsCoalesce_iff r).1 h3.1.1
  rcases this with h | h
  · rw [h3.1.2] at h; cases h
  · exact ⟨q, t, c, hb, h1, h2, hc, ⟨r, hr, h.2, h.1, h3.2⟩, h4, h5⟩

/-- A user whose name has the given tag and type. -/
def namedTy (tag : List Bytes) (t : Ty) : Ty :=
  structTy b!"N" [sqlFld b!"Name" tag t]

/-- A pointer is read and written as it is; a tag can ask for a substitute, with or without a value. -/
theorem C66_example_tags :
    (∃ q t c, Built shopCat q t ∧ generate q t = some c ∧ nullRow c = [none]) ∧
    (∃ q t c, Built shopCat q t ∧ generate q t = some c ∧ nullRow c = [some b!"''"]) ∧
    (∃ q t c, Built shopCat q t ∧ generate q t = some c ∧ nullRow c = [some b!"'anon'"]) := by
  refine ⟨?_, ?_, ?_⟩
  · obtain ⟨q, t, c, hb, hc, hp⟩ := code_of (env := env0) (cat := shopCat) (n := b!"SelectUsers")
      (fs := [relFld (.slice (namedTy [b!"name"] (.ptr strTy)))])
      (P := fun _ _ c => decide (nullRow c = [none])) (by decide +kernel)
    exact ⟨q, t, c, hb, hc, of_decide_eq_true hp⟩
  · obtain ⟨q, t, c, hb, hc, hp⟩ := code_of (env := env0) (cat := shopCat) (n := b!"SelectUsers")
      (fs := [relFld (.slice (namedTy [b!"name", b!"coalesce"] (.ptr strTy)))])
      (P := fun _ _ c => decide (nullRow c = [some b!"''"])) (by decide +kernel)
    exact ⟨q, t, c, hb, hc, of_decide_eq_true hp⟩
  · obtain ⟨q, t, c, hb, hc, hp⟩ := code_of (env := env0) (cat := shopCat) (n := b!"SelectUsers")
      (fs := [relFld (.slice (namedTy [b!"name", b!"coalesce('anon')"] strTy))])
      (P := fun _ _ c => decide (nullRow c = [some b!"'anon'"])) (by decide +kernel)
    exact ⟨q, t, c, hb, hc, of_decide_eq_true hp⟩

/-- The values that an insert writes, its parameters having the given value. -/
def writtenAs (v : Bytes) (q : Query) (t : TargetInfo) : List (Option Bytes) :=
  t.writes.map fun w => texts.val (fun _ => some v) (fun _ => none) (writeSpec q w)

/-- The values that are read if every column has the given value. -/
def readFrom (v : Option Bytes) (t : TargetInfo) : List (Option Bytes) :=
  t.reads.map fun r => readAs texts (fun (_ : Slot) => none) (fun _ => v) r

/-- An accepted insert and an accepted select, such that the insert stores `w` for the argument `v`, and the
select reads `r` from a column that has the value `w`. -/
def Through (v : Bytes) (w r : Option Bytes) : Prop :=
  ∃ q t q' t', Built shopCat q t ∧ Built shopCat q' t' ∧ q.kind = .insert ∧ q'.kind = .select ∧
    q.rel.id = q'.rel.id ∧ t.writes.map (·.column) = t'.reads.map (·.column) ∧
    writtenAs v q t = [w] ∧ readFrom w t' = [r]

/-- The insert and the select of a user whose name has the given tag. -/
def nameThrough (tag : List Bytes) (v : Bytes) (w r : Option Bytes) : Bool :=
  (pipeline env0 shopCat b!"InsertUser" [relFld (namedTy tag strTy)]).any fun x =>
    (pipeline env0 shopCat b!"SelectUser" [relFld (namedTy tag strTy)]).any fun y =>
      decide (x.1.kind = .insert ∧ y.1.kind = .select ∧ x.1.rel.id = y.1.rel.id ∧
        x.2.1.writes.map (·.column) = y.2.1.reads.map (·.column) ∧
        writtenAs v x.1 x.2.1 = [w] ∧ readFrom w y.2.1 = [r])

theorem nameThrough_sound {tag : List Bytes} {v : Bytes} {w r : Option Bytes}
    (h : nameThrough tag v w r = true) : Through v w r := by
  obtain ⟨⟨q, t, g⟩, hp, h⟩ := (Option.any_eq_true _ _).1 h
  obtain ⟨⟨q', t', g'⟩, hp', h⟩ := (Option.any_eq_true _ _).1 h
  exact ⟨q, t, q', t', (pipeline_built hp).1, (pipeline_built hp').1, of_decide_eq_true h⟩

/-- What is written is read back, also the empty string, which is stored as NULL. -/
theorem C66_example_round_trip :
    Through b!"'a'" (some b!"'a'") (some b!"'a'") ∧ Through b!"''" none (some b!"''") :=
  ⟨nameThrough_sound (tag := [b!"name"]) (by decide +kernel),
   nameThrough_sound (tag := [b!"name"]) (by decide +kernel)⟩

/-! ### Exceptions -/

/-- **C66** With `coalesce('anon')` an empty name that is written is read back as `anon`. -/
theorem C66_not_round_trip : Through b!"''" none (some b!"'anon'") :=
  nameThrough_sound (tag := [b!"name", b!"coalesce('anon')"]) (by decide +kernel)

/-- A relation of the given kind with one column that may be NULL. -/
def kindCat (kind : Char) (oid : Nat) (fmt : Bytes) : Catalog :=
  { types := [{ oid := oid, nameFmt := fmt, category := 'U' }]
    rels := [(b!"users", { columns := [{ num := 1, name := b!"name", typeOid := oid }], relKind := kind })] }

/-- **C66** The columns of a view, of a materialized view, of a partitioned table and of a foreign table are
taken to be not NULL, although they may be: NULL is scanned into a string. -/
theorem C66_not_tables : ∀ k ∈ ['v', 'm', 'p', 'f'],
    ∃ q t c, Built (kindCat k Oid.text b!"text") q t ∧ generate q t = some c ∧
      (∀ r ∈ t.reads, ¬ TakesNull r ∧ r.column.hasNotNull = false) ∧ t.reads.length = 1 ∧ nullRow c = [none] := by
  intro k hk
  have key : ∀ k ∈ ['v', 'm', 'p', 'f'],
      (pipeline env0 (kindCat k Oid.text b!"text") b!"SelectUsers"
        [relFld (.slice (namedTy [b!"name"] strTy))]).any (fun x => x.2.2.any fun c =>
          decide ((∀ r ∈ x.2.1.reads, (r.field.type.kind ≠ .ptr ∧ implementsScanner r.field.type = false ∧
            r.scanner.length = 0) ∧ r.column.hasNotNull = false) ∧ x.2.1.reads.length = 1 ∧ nullRow c = [none])) = true := by
    decide +kernel
  obtain ⟨q, t, c, hb, hc, hp⟩ := code_of (P := fun _ t c =>
          decide ((∀ r ∈ t.reads, (r.field.type.kind ≠ .ptr ∧ implementsScanner r.field.type = false ∧
            r.scanner.length = 0) ∧ r.column.hasNotNull = false) ∧ t.reads.length = 1 ∧ nullRow c = [none])) (key k hk)
  obtain ⟨h1, h2⟩ := of_decide_eq_true hp
  refine ⟨q, t, c, hb, hc, fun r hr => ⟨?_, (h1 r hr).2⟩, h2⟩
  rintro (h | h | h)
  · exact (h1 r hr).1.1 h
  · rw [(h1 r hr).1.2.1] at h; cases h
  · exact h (List.length_eq_zero_iff.1 (h1 r hr).1.2.2)

/-- `RIGHT JOIN`. -/
def rightFld (v : List Bytes) : Analysis.Field :=
  ({ name := b!"Join" },
    .struct (.ofList [({ name := b!"_", tag := [(b!"sql", v)] }, gosqlDir b!"RightJoin")]))

/-- **C66** In `users AS u RIGHT JOIN posts AS p` the columns of users are NULL for posts without a user; a
NOT NULL column is read as it is into an int. -/
theorem C66_not_outer_join : ∃ q t c, Built shopCat q t ∧ generate q t = some c ∧
    c.sql.stmt.joins.map (·.type) = [some .right] ∧ (∀ r ∈ t.reads, ¬ TakesNull r) ∧ nullRow c = [none] := by
  obtain ⟨q, t, c, hb, hc, hp⟩ := code_of (env := env0) (cat := shopCat) (n := b!"SelectUsers")
    (fs := [relFld (.slice (structTy b!"I" [sqlFld b!"Id" [b!"id"] Analysis.intTy])),
      rightFld [b!"posts:p", b!"p.user_id = u.id"]])
    (P := fun _ t c => decide (c.sql.stmt.joins.map (·.type) = [some .right] ∧
      (∀ r ∈ t.reads, r.field.type.kind ≠ .ptr ∧ implementsScanner r.field.type = false ∧
            r.scanner.length = 0) ∧ nullRow c = [none])) (by decide +kernel)
  obtain ⟨h1, h2, h3⟩ := of_decide_eq_true hp
  refine ⟨q, t, c, hb, hc, h1, fun r hr => ?_, h3⟩
  rintro (h | h | h)
  · exact (h2 r hr).1 h
  · rw [(h2 r hr).2.1] at h; cases h
  · exact h (List.length_eq_zero_iff.1 (h2 r hr).2.2)

/-- **C66** The type `line` has no zero value: a nullable column is read as it is into a string, even if the
tag says `coalesce`. -/
theorem C66_not_line :
    ∃ q t c, Built (kindCat 'r' Oid.line b!"line") q t ∧ generate q t = some c ∧
      (∀ r ∈ t.reads, Replaces r) ∧ t.reads.length = 1 ∧ nullRow c = [none] := by
  obtain ⟨q, t, c, hb, hc, hp⟩ := code_of (env := env0) (cat := kindCat 'r' Oid.line b!"line") (n := b!"SelectUsers")
    (fs := [relFld (.slice (namedTy [b!"name", b!"coalesce"] strTy))])
    (P := fun _ t c => decide ((∀ r ∈ t.reads, r.needsCoalesce = true) ∧ t.reads.length = 1 ∧ nullRow c = [none]))
    (by decide +kernel)
  obtain ⟨h1, h2⟩ := of_decide_eq_true hp
  exact ⟨q, t, c, hb, hc, fun r hr => (needsCoalesce_iff r).1 (h1 r hr), h2⟩

/-- A literal of SQL: `0`, `false`, or a string in quotes without quotes in it. -/
def isLiteral (s : Bytes) : Bool :=
  s = b!"0" || s = b!"false" ||
    (s.head? = some '\'' && s.getLast? = some '\'' && decide (s.length ≥ 2) &&
      !((s.drop 1).dropLast).contains '\'')

/-- **C66** The zero value of every type but `lseg` is written as a literal; that of `lseg` has no quotes. -/
theorem C66_literals_partial : ∀ e ∈ typeToZeroValue, isLiteral e.2 = true ∨ e.1 = Oid.lseg := by decide +kernel

/-- **C66** `COALESCE(name, [(0,0),(0,0)]::lseg)` is generated, which is not SQL. -/
theorem C66_not_lseg :
    isLiteral b!"[(0,0),(0,0)]" = false ∧
    ∃ q t c, Built (kindCat 'r' Oid.lseg b!"lseg") q t ∧ generate q t = some c ∧
      returned c = [.coalesce (.col ⟨b!"u", b!"name"⟩) (.cast (.lit b!"[(0,0),(0,0)]") b!"lseg")] := by
  refine ⟨by decide, ?_⟩
  obtain ⟨q, t, c, hb, hc, hp⟩ := code_of (env := env0) (cat := kindCat 'r' Oid.lseg b!"lseg") (n := b!"SelectUsers")
    (fs := [relFld (.slice (namedTy [b!"name"] strTy))])
    (P := fun _ _ c => decide (returned c =
      [.coalesce (.col ⟨b!"u", b!"name"⟩) (.cast (.lit b!"[(0,0),(0,0)]") b!"lseg")])) (by decide +kernel)
  exact ⟨q, t, c, hb, hc, of_decide_eq_true hp⟩

/-- PostgreSQL's type of a literal: a number without a point that fits is an integer, a string in quotes has
no type of its own. -/
def litType (s : Bytes) : Option Bytes :=
  if s = b!"0" then some b!"integer" else if s = b!"false" then some b!"boolean" else none

/-- The type PostgreSQL gives to the parameter in an expression: that of the cast, or that of the value it is
compared with (text if that has none), or else (none) that of the column it is assigned to. -/
def paramType {α : Type} : VExpr α → Option Bytes
  | .cast (.param _) t => some t
  | .cast x _ => paramType x
  | .nullif (.param _) (.lit s) => some ((litType s).getD b!"text")
  | _ => none

/-- **C66** In `NULLIF($1, 0)::bigint` the parameter is an integer, in `NULLIF($1, 0)::double precision` too:
a large value or a fraction is refused. -/
theorem C66_not_number_type :
    (∃ q t, Built (kindCat 'r' Oid.int8 b!"bigint") q t ∧
      t.writes.map (fun w => (writeSpec q w, w.column.type.nameFmt, paramType (writeSpec q w))) =
        [(.cast (.nullif (.param (path [b!"Users", b!"Name"])) (.lit b!"0")) b!"bigint",
          b!"bigint", some b!"integer")]) ∧
    (∃ q t, Built (kindCat 'r' Oid.float8 b!"double precision") q t ∧
      t.writes.map (fun w => (w.column.type.nameFmt, paramType (writeSpec q w))) =
        [(b!"double precision", some b!"integer")]) := by
  constructor
  · obtain ⟨q, t, hb, hp⟩ := built_of (env := env0) (cat := kindCat 'r' Oid.int8 b!"bigint") (n := b!"InsertUser")
      (fs := [relFld (namedTy [b!"name"] (.basic .int64 b!"int64"))])
      (P := fun q t _ => decide (t.writes.map (fun w => (writeSpec q w, w.column.type.nameFmt, paramType (writeSpec q w))) =
        [(.cast (.nullif (.param (path [b!"Users", b!"Name"])) (.lit b!"0")) b!"bigint",
          b!"bigint", some b!"integer")])) (by decide +kernel)
    exact ⟨q, t, hb, of_decide_eq_true hp⟩
  · obtain ⟨q, t, hb, hp⟩ := built_of (env := env0) (cat := kindCat 'r' Oid.float8 b!"double precision")
      (n := b!"InsertUser") (fs := [relFld (namedTy [b!"name"] (.basic .float64 b!"float64"))])
      (P := fun q t _ => decide (t.writes.map (fun w => (w.column.type.nameFmt, paramType (writeSpec q w))) =
        [(b!"double precision", some b!"integer")])) (by decide +kernel)
    exact ⟨q, t, hb, of_decide_eq_true hp⟩

/-- Columns that are NULL; `=` with NULL is unknown. -/
def nullNames : CondWorld (Option Bytes) where
  col _ := none
  lit s := some s
  call _ x := x
  op s x y := if s = b!"=" then x.bind fun x => y.map fun y => decide (x = y) else none
  isNull x := x.isNone
  truth _ := none
  elems _ := []
  field _ := some b!"''"

/-- **C66** A user written with an empty name is not found by `WHERE u.name = $1` with the empty string: the
column is NULL and the condition is unknown. -/
theorem C66_not_found : Through b!"''" none (some b!"''") ∧
    ∃ q t c, Built shopCat q t ∧ generate q t = some c ∧ c.args = [path [b!"Where", b!"Name"]] ∧
      c.whereMeaning nullNames = some (some none) := by
  refine ⟨nameThrough_sound (tag := [b!"name"]) (by decide +kernel), ?_⟩
  obtain ⟨q, t, c, hb, hc, hp⟩ := code_of (env := env0) (cat := shopCat) (n := b!"SelectUsers")
    (fs := [relFld (.slice userTy), whereOf [sqlFld b!"Name" [b!"u.name"] strTy]])
    (P := fun _ _ c => decide (c.args = [path [b!"Where", b!"Name"]] ∧
      c.whereMeaning nullNames = some (some none))) (by decide +kernel)
  exact ⟨q, t, c, hb, hc, of_decide_eq_true hp⟩

/-- **C66** Any option that begins with `coalesce` counts. -/
theorem C66_not_option :
    (∃ q t c, Built shopCat q t ∧ generate q t = some c ∧ nullRow c = [some b!"''"]) := by
  obtain ⟨q, t, c, hb, hc, hp⟩ := code_of (env := env0) (cat := shopCat) (n := b!"SelectUsers")
    (fs := [relFld (.slice (namedTy [b!"name", b!"coalescence"] (.ptr strTy)))])
    (P := fun _ _ c => decide (nullRow c = [some b!"''"])) (by decide +kernel)
  exact ⟨q, t, c, hb, hc, of_decide_eq_true hp⟩

end Verif.Generator
