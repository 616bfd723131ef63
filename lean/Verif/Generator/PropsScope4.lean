import Verif.Generator.PropsScope3
import Verif.Generator.PropsGram10
import Verif.Generator.PropsDb7

/- Property C105: every name in a generated statement refers to something in the database. -/
namespace Verif.Generator
open Verif.Analysis Verif.Postgres Verif.Generator.Names

section
variable {cat : Catalog} {q : Query} {t : TargetInfo} {c : Code}

/-- **C105** The relations that the clauses after FROM see are the target and what is joined to it, and no two of them
are known by the same name. -/
theorem C105_scope (hb : Built cat q t) (hg : generate q t = some c) :
    c.sql.stmt.scope = q.rel.id :: q.joined ∧ ((q.rel.id :: q.joined).map relKey).Nodup := by
  obtain ⟨h1, _, h3⟩ := built_found hb hg
  exact ⟨h3.scope, h1⟩

theorem plainRefs_found (hb : Built cat q t) (hg : generate q t = some c) {x : ColRef} (hx : x ∈ c.sql.plainRefs) :
    x.scope = q.rel.id :: q.joined ∧ Found cat q.rel.id (q.rel.id :: q.joined) x.col := by
  obtain ⟨_, _, h3⟩ := built_found hb hg
  obtain ⟨k, hk, rfl⟩ := List.mem_map.1 hx
  exact ⟨h3.scope, h3.plain k hk⟩

/-- **C105** A qualified column of the output, of the conditions or of the order refers to the relation that is known
by its qualifier, and this relation has the column. -/
theorem C105_qualified (hb : Built cat q t) (hg : generate q t = some c) (hl : LowerNames q) :
    ∀ x ∈ c.sql.plainRefs, x.col.qualifier ≠ [] → ∃ r ∈ q.rel.id :: q.joined,
      relKey r = x.col.qualifier ∧ x.col.name ∈ dbCols cat r ∧ refersTo cat x = some r := by
  intro x hx hne
  obtain ⟨hs, r, hr, hn, hq⟩ := plainRefs_found hb hg hx
  have hq : x.col.qualifier = relKey r := hq.resolve_right fun h => hne h.1
  refine ⟨r, hr, hq.symm, hn, ?_⟩
  have := refersTo_key (c := x.col) (built_found hb hg).1 hl hr hn hq hne
  rw [← hs] at this
  exact this

/-- **C105** One without qualifier is a column of the target, and refers to it unless a relation that is joined has a
column of the same name; the database then refuses the statement. -/
theorem C105_unqualified (hb : Built cat q t) (hg : generate q t = some c) :
    ∀ x ∈ c.sql.plainRefs, x.col.qualifier = [] → (∀ r ∈ q.rel.id :: q.joined, relKey r ≠ []) →
      x.col.name ∈ dbCols cat q.rel.id ∧ refersTo cat x =
        if q.joined.any fun r => (dbCols cat r).contains x.col.name then none else some q.rel.id := by
  intro x hx he hk
  obtain ⟨hs, r, hr, hn, hq⟩ := plainRefs_found hb hg hx
  have hrt : r = q.rel.id := by
    rcases hq with h | h
    · exact absurd (h.symm.trans he) (hk r hr)
    · exact h.2
  subst hrt
  have := refersTo_first (cat := cat) (js := q.joined) he hn
  rw [← hs] at this
  exact ⟨hn, this⟩

theorem nodup_of_map {α β : Type} {f : α → β} : ∀ {l : List α}, (l.map f).Nodup → l.Nodup
  | [], _ => List.nodup_nil
  | x :: xs, h => by
    rw [List.map_cons, List.nodup_cons] at h
    exact List.nodup_cons.2 ⟨fun hx => h.1 (List.mem_map_of_mem hx), nodup_of_map h.2⟩

/-- **C105** The condition of a join in a select: a qualified column refers to the relation that is known by its
qualifier, which stands before it; one without qualifier is a column of a relation before it, and refers to this one
if no other has it. -/
theorem C105_select_on (hb : Built cat q t) (hg : generate q t = some c) (hl : LowerNames q)
    (hk : q.kind.isSelect = true) : ∀ x ∈ c.sql.onRefs, ∃ r ∈ x.scope, r ∈ q.rel.id :: q.joined ∧
      x.col.name ∈ dbCols cat r ∧
      (x.col.qualifier ≠ [] → relKey r = x.col.qualifier ∧ refersTo cat x = some r) ∧
      (x.col.qualifier = [] → (∀ r' ∈ x.scope, x.col.name ∈ dbCols cat r' → r' = r) → refersTo cat x = some r) := by
  intro x hx
  obtain ⟨h1, _, h3⟩ := built_found hb hg
  obtain ⟨⟨r, hr, hn, hq⟩, hsub⟩ := h3.select hk x hx
  have hnd := (hsub.map relKey).nodup h1
  refine ⟨r, hr, hsub.subset hr, hn, ?_, ?_⟩
  · intro hne
    have hq := hq.resolve_right hne
    exact ⟨hq.symm, refersTo_key hnd (fun y hy => hl y (hsub.subset hy)) hr hn hq hne⟩
  · intro he ho
    exact refersTo_only he (nodup_of_map hnd) hr hn ho

/-- **C105** The condition of a join in an update or delete: a column with the qualifier of a relation of the FROM or
USING list refers to this relation, which stands before it and has the column; one with the qualifier of the target is
refused by the database. -/
theorem C105_from_on (hb : Built cat q t) (hg : generate q t = some c) (hl : LowerNames q)
    (hk : q.kind.isSelect = false) : ∀ x ∈ c.sql.onRefs, x.col.qualifier ≠ [] →
      (∃ r ∈ x.scope, r ∈ q.joined ∧ relKey r = x.col.qualifier ∧ x.col.name ∈ dbCols cat r ∧
        refersTo cat x = some r) ∨
      (x.col.qualifier = relKey q.rel.id ∧ x.col.name ∈ dbCols cat q.rel.id ∧ refersTo cat x = none) := by
  intro x hx hne
  obtain ⟨h1, _, h3⟩ := built_found hb hg
  obtain ⟨⟨r, hr, hn, hq⟩, hsub⟩ := h3.other hk x hx
  have hq := hq.resolve_right hne
  rw [List.map_cons, List.nodup_cons] at h1
  have hl' : ∀ y ∈ x.scope, lower (relKey y) = relKey y := fun y hy => hl y (List.mem_cons_of_mem _ (hsub.subset hy))
  rcases List.mem_cons.1 hr with rfl | hr
  · refine .inr ⟨hq, hn, refersTo_hidden hl' (hl _ (List.mem_cons_self ..)) ?_ hq hne⟩
    intro y hy he
    exact h1.1 (List.mem_map.2 ⟨y, hsub.subset hy, he⟩)
  · exact .inl ⟨r, hr, hsub.subset hr, hq.symm, hn,
      refersTo_key ((hsub.map relKey).nodup h1.2) hl' hr hn hq hne⟩

/-- **C105** Without joins every column refers to the target. -/
theorem C105_single (hb : Built cat q t) (hg : generate q t = some c) (hl : LowerNames q) (hj : q.joined = [])
    (hk : relKey q.rel.id ≠ []) : c.sql.onRefs = [] ∧ ∀ x ∈ c.sql.refs, refersTo cat x = some q.rel.id := by
  obtain ⟨h1, _, h3⟩ := built_found hb hg
  have hon : c.sql.onRefs = [] := by
    obtain ⟨js, g1, w, g2, e1, _, e3, _⟩ := generate_split hg
    have hsc := h3.scope
    rw [hj] at hsc
    have nil : ∀ (l : List (TableExpr Slot)) (seen : List RelIdent), l.flatMap TableExpr.rels = [] →
        tableRefs seen l = [] := by
      intro l
      induction l with
      | nil => intro _ _; rfl
      | cons a l ih =>
        intro seen h
        rw [List.flatMap_cons, List.append_eq_nil_iff] at h
        cases a with
        | rel r => simp [TableExpr.rels] at h
        | join j => simp [TableExpr.rels] at h
        | values => exact ih seen h.2
    unfold SQL.onRefs Stmt.onRefs
    unfold Stmt.scope at hsc
    split at hsc <;> simp only [List.cons.injEq, List.map_eq_nil_iff] at hsc
    · rfl
    · exact nil _ _ hsc.2
    · simp only [hsc.2, joinRefs]
    · simp only [hsc.2, joinRefs]
    · simp only [hsc.2, joinRefs]
    · exact nil _ _ hsc.2
  refine ⟨hon, ?_⟩
  intro x hx
  rw [SQL.refs, hon, List.append_nil] at hx
  by_cases he : x.col.qualifier = []
  · have := (C105_unqualified hb hg x hx he (by rw [hj]; simpa using hk)).2
    rw [hj] at this
    simpa using this
  · obtain ⟨r, hr, _, _, h⟩ := C105_qualified hb hg hl x hx he
    rw [hj, List.mem_singleton] at hr
    rw [h, hr]

/-- **C105** The columns that are assigned are columns of the target. -/
theorem C105_assigned (hb : Built cat q t) (hg : generate q t = some c) :
    ∀ n ∈ c.sql.assigned, n ∈ dbCols cat q.rel.id := by
  obtain ⟨_, hi, _⟩ := built_found hb hg
  obtain ⟨js, g1, w, g2, _, _, h, _⟩ := generate_split hg
  have hcols : ∀ n ∈ (t.writes.map fun w => w.column.name), n ∈ dbCols cat q.rel.id := by
    intro n hn
    obtain ⟨w, hw, rfl⟩ := List.mem_map.1 hn
    exact (hi.writes w hw).2.1
  have hconf : ∀ n ∈ ConflictClause.cols (buildConflict q t), n ∈ dbCols cat q.rel.id := by
    intro n hn
    unfold buildConflict at hn
    split at hn
    · simp [ConflictClause.cols] at hn
    · cases hc : t.conflict with
      | none => rw [hc] at hn; simp [ConflictClause.cols] at hn
      | some i =>
        rw [hc] at hn
        simp only [ConflictClause.cols, Option.map_some, Option.getD_some] at hn
        obtain ⟨k, hk, rfl⟩ := List.mem_map.1 hn
        exact hi.conflict i hc k hk
  revert h
  generalize c.sql = s
  intro h
  unfold buildStmt at h
  intro n hn
  split at h
  · cases h
    unfold buildInsert at hn
    simp only at hn
    split at hn
    · split at hn
      · simp only [SQL.assigned, List.mem_append, ConflictClause.cols, Option.map_none, Option.getD_none,
          List.append_nil] at hn
        exact hn.elim (hcols n) (hconf n)
      · simp only [SQL.assigned, List.append_nil, List.mem_append] at hn
        exact hn.elim (hcols n) (hconf n)
    · simp only [SQL.assigned, List.append_nil, List.mem_append] at hn
      exact hn.elim (hcols n) (hconf n)
  · simp only [buildUpdate, Option.map_eq_some_iff] at h
    obtain ⟨fr, _, rfl⟩ := h
    split at hn
    · simp only [SQL.assigned, List.append_nil] at hn
      exact hcols n hn
    · split at hn <;> simp only [SQL.assigned, List.append_nil] at hn <;> exact hcols n hn
  · cases h; simp [SQL.assigned] at hn
  · cases h; unfold buildCount at hn; split at hn <;> simp [SQL.assigned] at hn
  · cases h; unfold buildExists at hn; simp only at hn; split at hn <;> simp [SQL.assigned] at hn
  · cases h; unfold buildExists at hn; simp only at hn; split at hn <;> simp [SQL.assigned] at hn
  · simp only [buildDelete, Option.map_eq_some_iff] at h
    obtain ⟨us, _, rfl⟩ := h
    simp [SQL.assigned] at hn

end

/-! ### Cases -/

/-- The columns of a statement with what they refer to: the name of the relation, or nothing. -/
def targets (cat : Catalog) (l : List ColRef) : List (Bytes × Bytes × Option Bytes) :=
  l.map fun x => (x.col.qualifier, x.col.name, (refersTo cat x).map relKey)

/-- **C105** A select of users joined with their posts: the output, two conditions, the order and the join. -/
theorem C105_example : ∃ q t c, Built shopCat q t ∧ generate q t = some c ∧
    targets shopCat c.sql.plainRefs = [(b!"u", b!"id", some b!"u"), (b!"u", b!"name", some b!"u"),
      (b!"u", b!"age", some b!"u"), (b!"p", b!"id", some b!"p"), (b!"u", b!"name", some b!"u")] ∧
    targets shopCat c.sql.onRefs = [(b!"p", b!"user_id", some b!"p"), (b!"u", b!"id", some b!"u")] := by
  obtain ⟨q, t, c, h, hc, hp⟩ := code_of (env := env0) (cat := shopCat) (n := b!"SelectUsers")
    (fs := [relFld (.slice userTy), Gram.joinsFld [dirFld b!"LeftJoin" [b!"posts:p", b!"p.user_id = u.id"]],
      whereOf [sqlFld b!"Age" [b!"u.age >"] Analysis.intTy, sqlFld b!"Post" [b!"p.id"] Analysis.intTy],
      dirFld b!"OrderBy" [b!"u.name"]])
    (P := fun _ _ c => decide (targets shopCat c.sql.plainRefs = [(b!"u", b!"id", some b!"u"),
        (b!"u", b!"name", some b!"u"), (b!"u", b!"age", some b!"u"), (b!"p", b!"id", some b!"p"),
        (b!"u", b!"name", some b!"u")] ∧
      targets shopCat c.sql.onRefs = [(b!"p", b!"user_id", some b!"p"), (b!"u", b!"id", some b!"u")]))
    (by decide +kernel)
  exact ⟨q, t, c, h, hc, of_decide_eq_true hp⟩

/-- **C105** The columns of an INSERT. -/
theorem C105_example_assigned : ∃ q t c, Built shopCat q t ∧ generate q t = some c ∧
    c.sql.assigned = [b!"id", b!"name"] := by
  obtain ⟨q, t, c, h, hc, hp⟩ := code_of (env := env0) (cat := shopCat) (n := b!"InsertUser")
    (fs := [relFld (.ptr userTy)]) (P := fun _ _ c => decide (c.sql.assigned = [b!"id", b!"name"])) (by decide +kernel)
  exact ⟨q, t, c, h, hc, of_decide_eq_true hp⟩

/-- `rel:"users"`: the target without an alias. -/
def bareFld (t : Ty) : Analysis.Field := ({ name := b!"Users", tag := [(b!"rel", [b!"users"])] }, t)

/-- **C105** The output of a select whose target has no alias is not qualified: joined with a relation that has a
column of the same name, the statement is refused by the database. -/
theorem C105_not_output : ∃ q t c, Built shopCat q t ∧ generate q t = some c ∧
    targets shopCat c.sql.plainRefs = [([], b!"id", none), ([], b!"name", some b!"users")] := by
  obtain ⟨q, t, c, h, hc, hp⟩ := code_of (env := env0) (cat := shopCat) (n := b!"SelectUsers")
    (fs := [bareFld (.slice userTy), Gram.joinsFld [dirFld b!"LeftJoin" [b!"posts:p", b!"p.user_id = users.id"]]])
    (P := fun _ _ c => decide (targets shopCat c.sql.plainRefs =
      [([], b!"id", none), ([], b!"name", some b!"users")])) (by decide +kernel)
  exact ⟨q, t, c, h, hc, of_decide_eq_true hp⟩

/-- **C105** A column without qualifier in a condition is looked up in the target only; the database finds it in
every relation that is joined too. -/
theorem C105_not_where : ∃ q t c, Built shopCat q t ∧ generate q t = some c ∧
    targets shopCat c.sql.plainRefs = [([], b!"id", none)] := by
  obtain ⟨q, t, c, h, hc, hp⟩ := code_of (env := env0) (cat := shopCat) (n := b!"DeleteUsers")
    (fs := [relOnly, ({ name := b!"Using" }, .struct (.ofList [dirFld b!"Relation" [b!"posts:p"]])),
      whereOf [sqlFld b!"Id" [b!"id"] Analysis.intTy]])
    (P := fun _ _ c => decide (targets shopCat c.sql.plainRefs = [([], b!"id", none)])) (by decide +kernel)
  exact ⟨q, t, c, h, hc, of_decide_eq_true hp⟩

/-- **C105** The condition of a join in the FROM or USING list of an update or delete may name the target, which
the database does not see there. -/
theorem C105_not_target : ∃ q t c, Built shopCat q t ∧ generate q t = some c ∧
    targets shopCat c.sql.onRefs = [(b!"o", b!"user_id", some b!"o"), (b!"u", b!"id", none)] := by
  obtain ⟨q, t, c, h, hc, hp⟩ := code_of (env := env0) (cat := shopCat) (n := b!"DeleteUsers")
    (fs := [relOnly, ({ name := b!"Using" }, .struct (.ofList [dirFld b!"Relation" [b!"posts:p"],
        dirFld b!"LeftJoin" [b!"posts:o", b!"o.user_id = u.id"]])),
      whereOf [sqlFld b!"Id" [b!"u.id"] Analysis.intTy]])
    (P := fun _ _ c => decide (targets shopCat c.sql.onRefs =
      [(b!"o", b!"user_id", some b!"o"), (b!"u", b!"id", none)])) (by decide +kernel)
  exact ⟨q, t, c, h, hc, of_decide_eq_true hp⟩

/-- As `shopCat`, with a relation whose name has upper-case letters. -/
def upperCat : Catalog :=
  { shopCat with rels := (b!"Users", { columns := [{ num := 1, name := b!"id", typeOid := Oid.int4 },
                                                   { num := 2, name := b!"name", typeOid := Oid.text }] }) ::
                         shopCat.rels }

/-- **C105** The name of a relation is written with quotes and a qualifier without: a relation without an alias whose
name has upper-case letters cannot be named by its qualifier. -/
theorem C105_not_upper : ∃ q t c, Built upperCat q t ∧ generate q t = some c ∧
    targets upperCat c.sql.plainRefs = [([], b!"id", some b!"Users"), ([], b!"name", some b!"Users"),
      (b!"Users", b!"id", none)] := by
  obtain ⟨q, t, c, h, hc, hp⟩ := code_of (env := env0) (cat := upperCat) (n := b!"SelectUsers")
    (fs := [({ name := b!"Users", tag := [(b!"rel", [b!"Users"])] }, .slice userTy),
      whereOf [sqlFld b!"Id" [b!"Users.id"] Analysis.intTy]])
    (P := fun _ _ c => decide (targets upperCat c.sql.plainRefs =
      [([], b!"id", some b!"Users"), ([], b!"name", some b!"Users"), (b!"Users", b!"id", none)])) (by decide +kernel)
  exact ⟨q, t, c, h, hc, of_decide_eq_true hp⟩

/-- **C105** Two aliases that differ only in case are different for the tool and equal for the database. -/
theorem C105_not_case : ∃ q t c, Built shopCat q t ∧ generate q t = some c ∧
    targets shopCat c.sql.onRefs = [(b!"U", b!"user_id", none), (b!"u", b!"id", none)] := by
  obtain ⟨q, t, c, h, hc, hp⟩ := code_of (env := env0) (cat := shopCat) (n := b!"SelectUsers")
    (fs := [relFld (.slice userTy), Gram.joinsFld [dirFld b!"LeftJoin" [b!"posts:U", b!"U.user_id = u.id"]]])
    (P := fun _ _ c => decide (targets shopCat c.sql.onRefs = [(b!"U", b!"user_id", none), (b!"u", b!"id", none)]))
    (by decide +kernel)
  exact ⟨q, t, c, h, hc, of_decide_eq_true hp⟩

/-- As `shopCat`, with logs (user_id integer). -/
def logCat : Catalog :=
  { shopCat with rels := (b!"logs", { columns := [{ num := 1, name := b!"user_id", typeOid := Oid.int4 }] }) ::
                         shopCat.rels }

/-- **C105** In the condition of a join of an update or delete a column without qualifier that the checker finds in
the target, here `users.id`, is for the database one of another relation, here `posts.id`. -/
theorem C105_not_captured : ∃ q t c, Built logCat q t ∧ generate q t = some c ∧ q.rel.id.name = b!"users" ∧
    targets logCat c.sql.onRefs = [(b!"l", b!"user_id", some b!"l"), ([], b!"id", some b!"p")] := by
  obtain ⟨q, t, c, h, hc, hp⟩ := code_of (env := env0) (cat := logCat) (n := b!"DeleteUsers")
    (fs := [relOnly, ({ name := b!"Using" }, .struct (.ofList [dirFld b!"Relation" [b!"posts:p"],
        dirFld b!"LeftJoin" [b!"logs:l", b!"l.user_id = id"]])),
      whereOf [sqlFld b!"Id" [b!"u.id"] Analysis.intTy]])
    (P := fun q _ c => decide (q.rel.id.name = b!"users" ∧ targets logCat c.sql.onRefs =
      [(b!"l", b!"user_id", some b!"l"), ([], b!"id", some b!"p")])) (by decide +kernel)
  exact ⟨q, t, c, h, hc, of_decide_eq_true hp⟩

end Verif.Generator
