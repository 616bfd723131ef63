import Verif.Generator.PropsGram5
import Verif.Generator.PropsLex4

/- Property C89: the statement is read as it is meant. -/
namespace Verif.Generator.Gram
open Verif.Analysis Verif.Postgres Verif.Generator.Lex Print

section
variable {α : Type} {f : α → Bytes}

theorem Leads.where_ {ks : List Bytes} {w : Option (BList α)} {rest : List Tok} (h : Leads ks rest) :
    Leads (b!"where" :: ks) (whereToks f w ++ rest) := h.clause

/-- WHERE and RETURNING at the end. -/
theorem end_reads {n : Nat} {w : Option (BList α)} {r : List (VExpr α)} (hw : WhereGram f w) (hr : ValsGram f r)
    (hn : (whereToks f w ++ returningToks f r).length ≤ n) :
    whereP n (whereToks f w ++ returningToks f r) = some (w.map (condsTree f), returningToks f r) ∧
    returningP n (returningToks f r) = some (r.map (valTree f), []) ∧
    Leads afterTables (whereToks f w ++ returningToks f r) := by
  simp only [List.length_append] at hn
  have l0 : Leads [] ([] : List Tok) := trivial
  have l1 : Leads [b!"returning"] (returningToks f r) := by simpa using l0.returning (f := f) (r := r)
  refine ⟨where_reads (n := n) hw (by omega) l1 (by decide) (by decide), ?_, l1.where_⟩
  simpa using returning_reads (n := n) hr (by omega) l0 (by decide) (by decide)

theorem row_reads {n : Nat} {l : List (VExpr α)} {rest : List Tok} (hne : l ≠ []) (hl : ValsGram f l)
    (hn : (parens (commaToks (l.map (valToks f)))).length ≤ n) :
    row n (parens (commaToks (l.map (valToks f))) ++ rest) = some (l.map (valTree f), rest) := by
  rw [show (parens (commaToks (l.map (valToks f)))).length = (commaToks (l.map (valToks f))).length + 2 by
    simp [parens]] at hn
  have := vals_reads (n := n) (rest := .punct ')' :: rest) hne hl (by omega) rfl (by simp)
  simp [row, inParens, parens, this, close]

/-- UPDATE, with any conditions. -/
theorem update_clauses {n : Nat} {t : RelIdent} {cs : List Bytes} {vs : List (VExpr α)} {F W R : List Tok} {fr : FromT}
    {w : Option Ex} {r : List Ex} (ht : RelGram t) (hcs : cs.length ≥ 2) (hvs : vs.length = cs.length)
    (hv : ValsGram f vs) (hF : fromP n b!"from" (F ++ (W ++ R)) = some (fr, W ++ R))
    (hw : whereP n (W ++ R) = some (w, R)) (hr : returningP n R = some (r, []))
    (hn : (relToks t ++ namesToks cs ++ parens (commaToks (vs.map (valToks f)))).length ≤ n) :
    updateStmt n (relToks t ++ (kw b!"set" ++ (namesToks cs ++ ([.op b!"="] ++ (parens (commaToks (vs.map (valToks f))) ++
      (F ++ (W ++ R))))))) = some (.update (relTree t) (cs.map .name) (vs.map (valTree f)) fr w r, []) := by
  rw [List.length_append, List.length_append] at hn
  have e3 := fun rest => row_reads (n := n) (rest := rest) (l := vs) (by rintro rfl; simp at hvs; omega) hv (by omega)
  have e4 := fun rest => names_reads (n := n) (l := cs) (rest := rest) (by rintro rfl; simp at hcs) (by omega)
  have e5 := fun rest => relation_reads (rest := kw b!"set" ++ rest) ht trivial (by simp [kw])
  unfold updateStmt
  rw [e5, Option.bind_some]
  simp only [kw, List.cons_append, List.nil_append, after, if_true]
  rw [e4, Option.bind_some]
  simp only [equals, if_true]
  rw [e3, Option.bind_some, if_neg (by simp only [List.length_map]; omega)]
  rw [hF, Option.bind_some, hw, Option.bind_some, hr]
  rfl

/-- UPDATE. -/
theorem update_reads {n : Nat} {t : RelIdent} {cs : List Bytes} {vs : List (VExpr α)} {F : List Tok} {fr : FromT}
    {w : Option (BList α)} {r : List (VExpr α)} (ht : RelGram t) (hcs : cs.length ≥ 2) (hvs : vs.length = cs.length)
    (hv : ValsGram f vs) (hF : fromP n b!"from" (F ++ (whereToks f w ++ returningToks f r)) =
      some (fr, whereToks f w ++ returningToks f r)) (hw : WhereGram f w) (hr : ValsGram f r)
    (hn : (relToks t ++ namesToks cs ++ parens (commaToks (vs.map (valToks f))) ++ (whereToks f w ++
      returningToks f r)).length ≤ n) :
    updateStmt n (relToks t ++ (kw b!"set" ++ (namesToks cs ++ ([.op b!"="] ++ (parens (commaToks (vs.map (valToks f))) ++
      (F ++ (whereToks f w ++ returningToks f r))))))) =
      some (.update (relTree t) (cs.map .name) (vs.map (valTree f)) fr (w.map (condsTree f)) (r.map (valTree f)), []) := by
  rw [List.length_append] at hn
  obtain ⟨e1, e2, _⟩ := end_reads (n := n) hw hr (by omega)
  exact update_clauses ht hcs hvs hv hF e1 e2 (by omega)

/-- **C89** The statement is a statement of PostgreSQL, and its parts are what they are meant to be: every column
is in its place, every condition has its operands, every AND, OR and parenthesis joins the conditions that it was
written for, every clause is where it belongs. -/
theorem C89_stmt (s : Stmt α) (h : StmtGram f s) : parse (stmtToks f s) = some (stmtTree f s) := by
  have key : ∀ n, (stmtToks f s).length ≤ n → stmt n (stmtToks f s) = some (stmtTree f s, []) := by
    intro n hn
    cases s with
    | insert t cs o vs c r =>
      obtain ⟨h1, h2, ⟨l, rfl, h3, h4⟩, h5, h6⟩ := h
      simp only [stmtToks, kw, List.append_assoc, List.cons_append, List.nil_append, List.length_append, List.length_cons] at hn
      have he := comma_each (valToks f) l
      have := insert_reads (n := n) (f := f) (t := t) (cs := cs) (o := o) (c := c) (r := r)
        (rows := [l.map fun v => (valToks f v, valTree f v)]) h1 h2 (by simp)
        (by
          intro row hrow
          rw [List.mem_singleton] at hrow
          subst hrow
          refine ⟨by simpa using h3, fun y hy => ?_⟩
          obtain ⟨v, hv, rfl⟩ := List.mem_map.1 hy
          have := he v hv
          simp only [parens, List.length_append, List.length_cons] at hn
          exact ⟨(val_begins v (h4 v hv)).length, Reader.val (h4 v hv) (by omega)⟩) h5 h6
        (by simp only [List.map_cons, List.map_nil, commaToks, List.map_map, Function.comp_def, List.length_append]
            rw [show (fun x => valToks f x) = valToks f from rfl]; omega)
      simp only [List.map_cons, List.map_nil, commaToks, List.map_map, Function.comp_def] at this
      simp only [stmtToks, kw, List.append_assoc, List.cons_append, List.nil_append, stmt, if_true, after]
      simp only [kw, List.cons_append, List.nil_append] at this
      rw [if_neg (by decide)]
      rw [show (fun x => valToks f x) = valToks f from rfl] at this
      cases o <;> simpa [stmtTree, insertTree] using this
    | update t cs vs fr w r =>
      obtain ⟨h1, h2, h3, h4, h5, h6, h7⟩ := h
      simp only [stmtToks, kw, List.append_assoc, List.cons_append, List.nil_append, List.length_append, List.length_cons] at hn
      obtain ⟨_, _, l1⟩ := end_reads (n := n) h6 h7 (by simp only [List.length_append]; omega)
      have hF := from_reads (n := n) (w := b!"from") h5 (by decide) (by omega) l1
      have := update_reads h1 h2 h3 h4 hF h6 h7 (by simp only [List.length_append]; omega)
      simp only [stmtToks, kw, List.append_assoc, List.cons_append, List.nil_append, stmt]
      simp only [kw, List.cons_append, List.nil_append] at this
      simpa [stmtTree] using this
    | select cs t js w o l k =>
      obtain ⟨h1, h2⟩ := h
      simp only [stmtToks, kw, List.append_assoc, List.cons_append, List.nil_append, List.length_append, List.length_cons] at hn
      have := selectTail_reads (n := n) (cols := cs.map (valTree f)) (rest := []) h2 (by simp only [List.length_append]; omega) trivial
      simp only [List.append_nil, kw, List.cons_append, List.nil_append] at this
      simp only [stmtToks, kw, List.append_assoc, List.cons_append, List.nil_append, stmt, if_true]
      rw [selectStmt_cols h1, select_cols h1 (by omega), this]
      rfl
    | count t js w o k =>
      simp only [stmtToks, kw, List.append_assoc, List.cons_append, List.nil_append, List.length_append, List.length_cons] at hn
      have := selectTail_reads (n := n) (cols := [.call b!"count" [.star]]) (rest := []) h (by simp only [List.length_append]; omega) trivial
      simp only [List.append_nil, kw, List.cons_append, List.nil_append] at this
      simp only [stmtToks, kw, List.cons_append, List.nil_append, stmt, if_true, parens]
      have hc : ∀ r, listOf (expr n) n (.word b!"count" :: .punct '(' :: .op b!"*" :: .punct ')' :: .word b!"from" :: r) =
          some ([.call b!"count" [.star]], .word b!"from" :: r) := by
        intro r
        obtain ⟨m, rfl⟩ : ∃ m, n = m + 1 := ⟨n - 1, by omega⟩
        have he : expr (m + 1) ([.word b!"count", .punct '(', .op b!"*", .punct ')'] ++ .word b!"from" :: r) =
            some (.call b!"count" [.star], .word b!"from" :: r) := by
          refine Reads.expr (ts := [.word b!"count", .punct '(', .op b!"*", .punct ')'])
            (.of_prim (by simp) fun rest _ => ?_) (.inl (by decide)) ?_ rfl
          · simp [prim, isConst, nameOrCall, (by decide : funcWord b!"count" = true), args, close]
          · simp only [parens, List.length_append, List.length_cons, List.length_nil] at hn ⊢; omega
        rw [show (Tok.word b!"count" :: .punct '(' :: .op b!"*" :: .punct ')' :: .word b!"from" :: r) =
          [.word b!"count", .punct '(', .op b!"*", .punct ')'] ++ .word b!"from" :: r from rfl, listOf, he]
        rfl
      simp [selectStmt, select, hc, this, stmtTree]
    | exists_ nn op t js w o l k =>
      obtain ⟨rfl, h2⟩ := h
      simp only [stmtToks, kw, List.append_assoc, List.cons_append, List.nil_append, List.length_append, List.length_cons] at hn
      have := selectTail_reads (n := n) (cols := [.const (.num b!"1")]) (rest := [.punct ')']) h2 (by simp only [List.length_append]; omega) rfl
      simp only [kw, List.cons_append, List.nil_append, List.append_assoc] at this
      have hc : ∀ r, listOf (expr n) n (.num b!"1" :: .word b!"from" :: r) =
          some ([.const (.num b!"1")], .word b!"from" :: r) := by
        intro r
        obtain ⟨m, rfl⟩ : ∃ m, n = m + 1 := ⟨n - 1, by omega⟩
        rw [listOf, const_expr (m := m + 1) (rest := .word b!"from" :: r) (by omega) rfl rfl]
        rfl
      cases nn <;> simp [stmtToks, kw, stmt, notToks, selectStmt, opens, existsP, inParens, after, select, hc, this, close, stmtTree]
    | delete t us w r =>
      obtain ⟨h1, h5, h6, h7⟩ := h
      simp only [stmtToks, kw, List.append_assoc, List.cons_append, List.nil_append, List.length_append, List.length_cons] at hn
      obtain ⟨e1, e2, l1⟩ := end_reads (n := n) h6 h7 (by simp only [List.length_append]; omega)
      have hF := from_reads (n := n) (w := b!"using") h5 (by decide) (by omega) l1
      have l2 : Leads (b!"using" :: afterTables) (tablesToks f b!"using" us ++ (whereToks f w ++ returningToks f r)) := by
        unfold tablesToks
        split
        · exact l1.mono fun w hw => .tail _ hw
        · exact .head _
      have e5 := relation_reads h1 (noDot_of (l2.ends (c := cont0) (by decide) rfl)) (l2.no (by decide))
      simp only [stmtToks, kw, List.append_assoc, List.cons_append, List.nil_append, stmt, after]
      simp [deleteStmt, e5, hF, e1, e2, stmtTree]
  unfold parse
  rw [key _ (Nat.le_refl _)]

/-! ### Rows -/

theorem cells_toks (p : Nat) : ∀ (vs : List (VExpr α)) , (cells p vs).map (·.1) = cellToks p vs := by
  intro vs
  induction vs generalizing p with
  | nil => rfl
  | cons v vs ih => cases v <;> simp [cells, cellToks, ih]

theorem cells_read {n : Nat} : ∀ (vs : List (VExpr α)) (p : Nat), (∀ v ∈ vs, ∀ k, ValGram (fun _ => ordinal (k + 1)) v) →
    ∀ y ∈ cells p vs, y.1.length ≤ n → 1 ≤ y.1.length ∧ Reader n y.1 y.2
  | [], _, _, y, hy, _ => nomatch hy
  | v :: vs, p, h, y, hy, hn => by
    have ih := fun p => cells_read (n := n) vs p fun w hw => h w (.tail _ hw)
    have key : ∀ v : VExpr α, (∀ k, ValGram (fun _ => ordinal (k + 1)) v) →
        y = (valToks (fun _ => ordinal (p + 1)) v, valTree (fun _ => ordinal (p + 1)) v) →
        1 ≤ y.1.length ∧ Reader n y.1 y.2 := by
      rintro v hv rfl
      exact ⟨(val_begins v (hv p)).length, Reader.val (hv p) hn⟩
    cases v <;> simp only [cells, List.mem_cons] at hy <;> rcases hy with hy | hy <;>
      first
        | exact ih _ y hy hn
        | exact key _ (h _ (.head _)) hy

theorem rows_eq (vs : List (VExpr α)) (k n : Nat) : rowsToks vs k n =
    commaToks (((List.range n).map fun i => cells (i * k) vs).map fun row => parens (commaToks (row.map (·.1)))) := by
  simp only [rowsToks, List.map_map, Function.comp_def, cells_toks]

theorem cells_ne {vs : List (VExpr α)} {p : Nat} (h : vs ≠ []) : cells p vs ≠ [] := by
  cases vs with
  | nil => exact absurd rfl h
  | cons v vs => cases v <;> simp [cells]

theorem rows_read {n k m : Nat} {vs : List (VExpr α)} (h : CellsGram vs) (hn : (rowsToks vs k m).length ≤ n) :
    ∀ row ∈ (List.range m).map fun i => cells (i * k) vs,
      row ≠ [] ∧ ∀ y ∈ row, 1 ≤ y.1.length ∧ Reader n y.1 y.2 := by
  intro row hrow
  have h1 := comma_each (fun row : List (List Tok × Ex) => parens (commaToks (row.map (·.1)))) _ row hrow
  rw [← rows_eq] at h1
  rw [show (parens (commaToks (row.map (·.1)))).length = (commaToks (row.map (·.1))).length + 2 by simp [parens]] at h1
  obtain ⟨i, _, rfl⟩ := List.mem_map.1 hrow
  refine ⟨cells_ne h.1, fun y hy => ?_⟩
  have h2 := comma_each (·.1) _ y hy
  exact cells_read vs _ h.2 y hy (by omega)

/-- What the rows are read as. -/
theorem rows_list {n k m : Nat} {vs : List (VExpr α)} {rest : List Tok} (h : CellsGram vs) (hm : m ≠ 0)
    (hn : (rowsToks vs k m).length ≤ n) (hc : ∀ s, rest ≠ .punct ',' :: s) :
    listOf (row n) n (rowsToks vs k m ++ rest) = some (rowsTree vs k m, rest) := by
  have hread := rows_read (n := n) h hn
  rw [rows_eq] at hn ⊢
  have hl := comma_length (fun row : List (List Tok × Ex) => parens (commaToks (row.map (·.1))))
    ((List.range m).map fun i => cells (i * k) vs) (by simp [parens])
  have hre := comma_each (fun row : List (List Tok × Ex) => parens (commaToks (row.map (·.1))))
    ((List.range m).map fun i => cells (i * k) vs)
  have hrow1 : ∀ row ∈ (List.range m).map fun i => cells (i * k) vs, ∀ s,
      Gram.row n (parens (commaToks (row.map (·.1))) ++ s) = some (row.map (·.2), s) := by
    intro x hx s
    obtain ⟨k1, k2⟩ := hread x hx
    have hxl := comma_length (fun y : List Tok × Ex => y.1) x fun y hy => (k2 y hy).1
    have := hre x hx
    rw [show (parens (commaToks (x.map (·.1)))).length = (commaToks (x.map (·.1))).length + 2 by simp [parens]] at this
    have := list_reads (n := n) (k := n) (l := x) (rest := .punct ')' :: s) k1 (fun y hy => (k2 y hy).2) (by omega) rfl
      (by simp)
    simp [Gram.row, inParens, parens, this, close]
  have := listOf_comma (p := Gram.row n) _ (fun row : List (List Tok × Ex) => row.map (·.2)) hc
    ((List.range m).map fun i => cells (i * k) vs) n (by cases m with | zero => exact absurd rfl hm | succ m => simp [List.range_succ])
    (by omega) (fun x hx => hrow1 x hx _) fun x hx s => hrow1 x hx _
  rw [this, rowsTree, List.map_map]
  rfl

theorem rows_insert {vs : List (VExpr α)} {k m : Nat} {t : RelIdent} {cs : List Bytes} {o : Option Overriding}
    {c : Option ConflictClause} {r : List (VExpr α)}
    (h : RelGram t ∧ cs ≠ [] ∧ (∀ x, c = some x → ConflictGram x) ∧ ValsGram f r) (hv : CellsGram vs) (hm : m ≠ 0) :
    parse (stmtToks f (.insert t cs o none none []) ++ rowsToks vs k m ++ tailToks f (.insert c r)) =
      some (insertTree f t cs o (rowsTree vs k m) c r) := by
  obtain ⟨h1, h2, h3, h4⟩ := h
  unfold parse
  generalize hN : (stmtToks f (.insert t cs o none none []) ++ rowsToks vs k m ++ tailToks f (.insert c r)).length = n
  have hn : (relToks t ++ namesToks cs ++ rowsToks vs k m ++ onConflictToks c ++ returningToks f r).length ≤ n := by
    rw [← hN]
    simp only [stmtToks, tailToks, List.length_append]
    omega
  have hrr : (rowsToks vs k m).length ≤ n := by simp only [List.length_append] at hn; omega
  rw [rows_eq] at hn
  have := insert_reads (n := n) (f := f) (t := t) (cs := cs) (o := o) (c := c) (r := r)
    (rows := (List.range m).map fun i => cells (i * k) vs) h1 h2
    (by cases m with | zero => exact absurd rfl hm | succ m => simp [List.range_succ])
    (rows_read hv hrr) h3 h4 hn
  rw [← rows_eq] at this
  have hh : stmt n (stmtToks f (.insert t cs o none none []) ++ rowsToks vs k m ++ tailToks f (.insert c r)) =
      some (insertTree f t cs o (rowsTree vs k m) c r, []) := by
    simp only [List.map_map] at this
    cases o <;>
    simpa [stmtToks, tailToks, kw, stmt, after, onConflictToks, clauseToks, returningToks, rowsTree, Function.comp_def]
      using this
  rw [hh]

/-- **C89** The statement with a row for each record is read with that many rows, each with its own
placeholders. -/
theorem C89_rows {vs : List (VExpr α)} {k m : Nat} {s : Stmt α} {t : Tail α} (h : RowedGram f s t) (hv : CellsGram vs)
    (hm : m ≠ 0) :
    ∃ x, rowedTree f vs k m s t = some x ∧ parse (stmtToks f s ++ rowsToks vs k m ++ tailToks f t) = some x := by
  unfold RowedGram at h
  split at h
  · next t cs o c r => exact ⟨_, rfl, rows_insert h hv hm⟩
  · next t cs o =>
    have := rows_insert (f := f) (k := k) (t := t) (cs := cs) (o := o) (c := none) (r := [])
      ⟨h.1, h.2, by simp, by simp [ValsGram]⟩ hv hm
    exact ⟨_, rfl, by simpa [tailToks, onConflictToks, clauseToks, returningToks] using this⟩
  · next t cs us xs w r =>
    obtain ⟨h1, h2, h3, h4, h5, h6, h7⟩ := h
    refine ⟨_, rfl, ?_⟩
    unfold parse
    generalize hN : (stmtToks f (.update t cs us [.values] none []) ++ rowsToks vs k m ++
      tailToks f (.update (some xs) w r)).length = n
    simp only [stmtToks, tailToks, List.length_append, kw, List.length_cons] at hN
    obtain ⟨_, _, l1⟩ := end_reads (n := n) h6 h7 (by simp only [List.length_append]; omega)
    have hrows := rows_list (n := n) (k := k) (rest := .punct ')' :: .word b!"as" :: .word b!"x" :: (namesToks xs ++
      (whereToks f w ++ returningToks f r))) hv hm (by omega) (by simp)
    have hnames := names_reads (n := n) (rest := whereToks f w ++ returningToks f r) h5 (by omega)
    have hF : fromP n b!"from" ((.word b!"from" :: .punct '(' :: .word b!"values" :: (rowsToks vs k m ++ .punct ')' ::
        .word b!"as" :: .word b!"x" :: namesToks xs)) ++ (whereToks f w ++ returningToks f r)) =
        some (.values (rowsTree vs k m) (.word b!"x") (xs.map .name), whereToks f w ++ returningToks f r) := by
      simp [fromP, opt, after, tables, hrows, close, name1, (by decide : isName (.word b!"x") = true), hnames]
    have := update_reads h1 h2 h3 h4 hF h6 h7 (by simp only [List.length_append]; omega)
    have hh : stmt n (stmtToks f (.update t cs us [.values] none []) ++ rowsToks vs k m ++
        tailToks f (.update (some xs) w r)) = some (.update (relTree t) (cs.map .name) (us.map (valTree f))
      (.values (rowsTree vs k m) (.word b!"x") (xs.map .name)) (w.map (condsTree f)) (r.map (valTree f)), []) := by
      simp [kw] at this
      simpa [stmtToks, tailToks, kw, stmt, after, tablesToks, tableToks, whereToks, clauseToks, returningToks] using this
    rw [hh]
  · exact h.elim

end

end Verif.Generator.Gram
