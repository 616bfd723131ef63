import Verif.Generator.PropsFGram

/- Property C90: how statements with a filter are read. -/
namespace Verif.Generator.Gram
open Verif.Analysis Verif.Postgres Verif.Generator.Lex Print

/-! ### ORDER BY -/

def nullsToks : Option Bool → List Tok
  | none => []
  | some true => kw b!"nulls" ++ kw b!"first"
  | some false => kw b!"nulls" ++ kw b!"last"

def itemToks (i : Filter.OrderItem) : List Tok :=
  lex i.column ++ (if i.desc then kw b!"desc" else kw b!"asc") ++ nullsToks i.nulls

theorem item_reads {i : Filter.OrderItem} (h : Whole i.column) : Lex.Reads i.text (itemToks i) := by
  unfold Filter.OrderItem.text itemToks
  have h1 : Lex.Reads (i.column ++ (if i.desc then b!" DESC" else b!" ASC"))
      (lex i.column ++ (if i.desc then kw b!"desc" else kw b!"asc")) := by
    cases i.desc
    · exact h.reads.append (show SepHead b!" ASC" by decide) ((show Whole b!" ASC" by decide).reads.of rfl (by decide))
    · exact h.reads.append (show SepHead b!" DESC" by decide) ((show Whole b!" DESC" by decide).reads.of rfl (by decide))
  cases i.nulls with
  | none => simpa [nullsToks] using h1
  | some b =>
    cases b
    · exact h1.append (show SepHead b!" NULLS LAST" by decide)
        ((show Whole b!" NULLS LAST" by decide).reads.of rfl (by decide))
    · exact h1.append (show SepHead b!" NULLS FIRST" by decide)
        ((show Whole b!" NULLS FIRST" by decide).reads.of rfl (by decide))

theorem items_lex : ∀ (items : List Filter.OrderItem), (∀ i ∈ items, Whole i.column) →
    Lex.Reads ((b!", ").intercalate (items.map Filter.OrderItem.text)) (commaToks (items.map itemToks))
  | [], _ => (show Whole [] by decide).reads.of (by simp) (by decide)
  | [i], h => by simpa [commaToks] using item_reads (h i (.head _))
  | i :: j :: l, h => by
    have ih := items_lex (j :: l) fun x hx => h x (.tail _ hx)
    have := ((item_reads (h i (.head _))).append_closed (show SepHead b!", " by decide) (by simp)
      (show Closed b!", " [.punct ','] by decide)).append_reads ih
    refine this.of ?_ ?_
    · simp only [List.map_cons, List.intercalate_cons_cons]
    · simp [commaToks]

theorem item_order {n : Nat} {i : Filter.OrderItem} {rest : List Tok} (h : (colOf (lex i.column)).isSome = true)
    (hn : (itemToks i).length ≤ n) (hr : ∀ s, rest ≠ .word b!"nulls" :: s) :
    order1 n (itemToks i ++ rest) = some (itemTree i, rest) := by
  obtain ⟨x, hx⟩ := Option.isSome_iff_exists.1 h
  have hb := (colOf_begins hx).length
  unfold itemToks at hn
  have hd : (if i.desc = true then kw b!"desc" else kw b!"asc").length = 1 := by split <;> rfl
  simp only [List.length_append, hd] at hn
  obtain ⟨m, rfl⟩ : ∃ m, n = m + 1 := ⟨n - 1, by omega⟩
  have ha := colOf_reads (m := m) (n := m + 1) hx (by omega)
  have he : ∀ rest, Ends cont7 rest → expr (m + 1) (lex i.column ++ rest) = some (x, rest) :=
    fun rest hr => ha.reads.expr ha.begins ha.len hr
  have hnull : ∀ d, nullsP d rest = (d, rest) := by
    intro d
    unfold nullsP
    split
    · next a b r =>
      rw [if_neg]
      rintro ⟨rfl, _⟩
      exact hr _ rfl
    · rfl
  unfold order1 itemToks itemTree
  simp only [List.append_assoc]
  rw [he _ (by cases i.desc <;> rfl), hx]
  rcases hnl : i.nulls with _ | b
  · cases hd : i.desc <;> simp [kw, nullsToks, hnull]
  · cases hd : i.desc <;> cases b <;> simp [kw, nullsToks, nullsP]

def orderItemsToks (items : List Filter.OrderItem) : List Tok :=
  if items.length = 0 then [] else kw b!"order" ++ kw b!"by" ++ commaToks (items.map itemToks)

theorem items_clause {n : Nat} {items : List Filter.OrderItem} (h : ∀ i ∈ items, (colOf (lex i.column)).isSome = true)
    (hn : (orderItemsToks items).length ≤ n) :
    Clause b!"order" (orderP n) (orderItemsToks items) (items.map itemTree) := by
  refine ⟨fun ks rest hr hk hnu hw => ?_, fun ks rest hr => ?_⟩
  · unfold orderP
    cases items with
    | nil =>
      have := opt_none (ws := [b!"by"]) (p := listOf (order1 n) n) (hr.no hw)
      simp only [orderItemsToks, List.length_nil, if_true, List.nil_append, this]
      rfl
    | cons x xs =>
      rw [orderItemsToks, if_neg (by simp)] at hn ⊢
      have he := comma_each itemToks (x :: xs)
      have hl := comma_length itemToks (x :: xs) (by
        intro y hy
        obtain ⟨c, hc⟩ := Option.isSome_iff_exists.1 (h y hy)
        have := (colOf_begins hc).length
        simp only [itemToks, List.length_append]; omega)
      simp only [kw, List.length_append] at hn
      have := listOf_comma (p := order1 n) itemToks itemTree hr.noComma (x :: xs) n (by simp) (by omega)
        (fun y hy => item_order (h y hy) (by have := he y hy; omega) (hr.no hnu))
        fun y hy r => item_order (h y hy) (by have := he y hy; omega) (by simp)
      have := opt_some (w := b!"order") (ws := [b!"by"]) (p := listOf (order1 n) n) (ts := .word b!"by" ::
        (commaToks ((x :: xs).map itemToks) ++ rest)) this
      simp only [kw, List.cons_append, List.nil_append]
      rw [this]
      rfl
  · unfold orderItemsToks
    split
    · exact hr.mono fun w hw => .tail _ hw
    · exact .head _

/-! ### The other clauses -/

section
variable {α : Type}

def whereSegToks (p : Nat) (e : List (Filter.Seg α)) : List Tok :=
  if e.length = 0 then [] else kw b!"where" ++ segsToks p e

theorem meant_clause {n p : Nat} {e : List (Filter.Seg α)} {t : Option Ex} (h : MeantWhere p e t)
    (hn : (whereSegToks p e).length ≤ n) : Clause b!"where" (whereP n) (whereSegToks p e) t := by
  refine ⟨fun ks rest hr hk _ hw => ?_, fun ks rest hr => ?_⟩
  · unfold whereP
    cases h with
    | none => exact opt_none (hr.no hw)
    | some h =>
      have hne : ¬ e.length = 0 := by
        intro h0
        rw [List.length_eq_zero_iff] at h0
        subst h0
        exact absurd (meant_reads h).2.1.length (by simp [segsToks])
      rw [whereSegToks, if_neg hne] at hn ⊢
      refine opt_some (rest := rest) ?_
      exact meant_expr h (by simp only [kw, List.length_append] at hn; omega) rest (hr.ends hk rfl)
  · unfold whereSegToks
    split
    · exact hr.mono fun w hw => .tail _ hw
    · exact .head _

def countToks (w : Bytes) : Option Int64 → List Tok
  | none => []
  | some n => kw w ++ [.num (itoa n.toInt.toNat)]

theorem count_clause {n : Nat} (w : Bytes) (l : Option Int64) (hn : (countToks w l).length ≤ n) :
    Clause w (opt w [] (expr n)) (countToks w l) (countEx l) := by
  refine ⟨fun ks rest hr hk _ hw => ?_, fun ks rest hr => ?_⟩
  · cases l with
    | none => exact opt_none (hr.no hw)
    | some m =>
      refine opt_some (rest := rest) ?_
      simp only [countToks, kw, List.length_append, List.length_cons] at hn
      exact const_expr (by omega) rfl (hr.ends hk rfl)
  · cases l with
    | none => exact hr.mono fun w hw => .tail _ hw
    | some m => exact .head _

/-! ### Statements -/

variable {f : α → Bytes}

theorem count_star {n : Nat} (hn : 4 ≤ n) (r : List Tok) :
    listOf (expr n) n (.word b!"count" :: .punct '(' :: .op b!"*" :: .punct ')' :: .word b!"from" :: r) =
      some ([.call b!"count" [.star]], .word b!"from" :: r) := by
  obtain ⟨m, rfl⟩ : ∃ m, n = m + 1 := ⟨n - 1, by omega⟩
  have he : expr (m + 1) ([.word b!"count", .punct '(', .op b!"*", .punct ')'] ++ .word b!"from" :: r) =
      some (.call b!"count" [.star], .word b!"from" :: r) := by
    refine Reads.expr (ts := [.word b!"count", .punct '(', .op b!"*", .punct ')'])
      (.of_prim (by simp) fun rest _ => ?_) (.inl (by decide)) ?_ rfl
    · simp [prim, isConst, nameOrCall, (by decide : funcWord b!"count" = true), args, close]
    · simp only [List.length_cons, List.length_nil]; omega
  rw [show (Tok.word b!"count" :: .punct '(' :: .op b!"*" :: .punct ')' :: .word b!"from" :: r) =
    [.word b!"count", .punct '(', .op b!"*", .punct ')'] ++ .word b!"from" :: r from rfl, listOf, he]
  rfl

theorem one_const {n : Nat} (hn : 1 ≤ n) (r : List Tok) :
    listOf (expr n) n (.num b!"1" :: .word b!"from" :: r) = some ([.const (.num b!"1")], .word b!"from" :: r) := by
  obtain ⟨m, rfl⟩ : ∃ m, n = m + 1 := ⟨n - 1, by omega⟩
  rw [listOf, const_expr (m := m + 1) (rest := .word b!"from" :: r) (by omega) rfl rfl]
  rfl

theorem whereToks_none : whereToks f (none : Option (BList α)) = [] := rfl

theorem returningToks_nil : returningToks f ([] : List (VExpr α)) = [] := rfl

theorem selectTailToks_none (js : List (TableJoin α)) :
    selectTailToks f js none [] .none .none = js.flatMap (tableJoinToks f) := by
  simp [selectTailToks, whereToks, orderByToks, clauseToks, limitToks]

theorem isNone_val {l : LimitVal α} (h : l.isNone = true) : l = .none := by
  cases l <;> simp_all [LimitVal.isNone]

/-- **C90** The statement with a filter is a statement of PostgreSQL, and its parts are what they are meant to be. -/
theorem C90_stmt {s : Stmt α} {tl : Tail α} {x : FilterT} {W O L K : List Tok} (hs : HeadGram f s)
    (he : endsBeforeWhere s = true) (ht : TailGram f s tl)
    (h3 : ∀ n, W.length ≤ n → Clause b!"where" (whereP n) W x.wher)
    (h4 : ∀ n, O.length ≤ n → Clause b!"order" (orderP n) O x.order)
    (h5 : ∀ n, L.length ≤ n → Clause b!"limit" (opt b!"limit" [] (expr n)) L x.limit)
    (h6 : ∀ n, K.length ≤ n → Clause b!"offset" (opt b!"offset" [] (expr n)) K x.offset)
    (hso : sortable s = false → O = [] ∧ L = [] ∧ K = []) :
    parse (stmtToks f s ++ (W ++ (O ++ (L ++ K))) ++ (if isOpen s then [.punct ')'] else []) ++ tailToks f tl) =
      some (filteredTree f x s tl) := by
  have key : ∀ n, (stmtToks f s ++ (W ++ (O ++ (L ++ K))) ++ (if isOpen s then [Tok.punct ')'] else []) ++
      tailToks f tl).length ≤ n → stmt n (stmtToks f s ++ (W ++ (O ++ (L ++ K))) ++
      (if isOpen s then [.punct ')'] else []) ++ tailToks f tl) = some (filteredTree f x s tl, []) := by
    intro n hn
    have hW : W.length ≤ n := by simp only [List.length_append] at hn; omega
    have hO : O.length ≤ n := by simp only [List.length_append] at hn; omega
    have hL : L.length ≤ n := by simp only [List.length_append] at hn; omega
    have hK : K.length ≤ n := by simp only [List.length_append] at hn; omega
    cases s with
    | insert t cs o vs c r => exact absurd hs id
    | update t cs vs fr w r =>
      obtain ⟨h1, h2, h7, h8, h9⟩ := hs
      obtain ⟨rfl, rfl, rfl⟩ := hso rfl
      simp only [endsBeforeWhere, Bool.and_eq_true, Option.isNone_iff_eq_none, List.isEmpty_iff] at he
      obtain ⟨rfl, rfl⟩ := he
      have htl : ∃ r, ValsGram f r ∧ tailToks f tl = returningToks f r ∧ tailVals tl = r := by
        match tl, ht with
        | .none, _ => exact ⟨[], nofun, rfl, rfl⟩
        | .update none none r, ht => exact ⟨r, ht, by simp [tailToks, whereToks, clauseToks], rfl⟩
      obtain ⟨r, hr, htk, hv⟩ := htl
      simp only [htk, stmtToks, kw, List.append_assoc, List.cons_append, List.nil_append, List.append_nil, isOpen,
        Bool.false_eq_true, if_false, whereToks_none, returningToks_nil, List.length_append, List.length_cons] at hn ⊢
      have l0 : Leads [] ([] : List Tok) := trivial
      have l1 : Leads [b!"returning"] (returningToks f r) := by simpa using l0.returning (f := f) (r := r)
      have e1 := (h3 n hW).reads _ _ l1 (by decide) (by decide) (by decide)
      have e2 : returningP n (returningToks f r) = some (r.map (valTree f), []) := by
        simpa using returning_reads (n := n) hr (by omega) l0 (by decide) (by decide)
      have hF := from_reads (n := n) (w := b!"from") h9 (by decide) (by omega) ((h3 n hW).leads _ _ l1)
      have := update_clauses h1 h2 h7 h8 hF e1 e2 (by simp only [List.length_append]; omega)
      simp only [kw, List.cons_append, List.nil_append] at this
      simp only [stmt]
      simpa [filteredTree, hv] using this
    | select cs t js w o l k =>
      obtain ⟨h1, h2, h7⟩ := hs
      simp only [endsBeforeWhere, Bool.and_eq_true, Option.isNone_iff_eq_none, List.isEmpty_iff] at he
      obtain ⟨⟨⟨rfl, rfl⟩, hl⟩, hk⟩ := he
      have hl := isNone_val hl
      have hk := isNone_val hk
      subst hl hk
      have htl : tl = .none := by cases tl <;> first | rfl | exact absurd ht id
      subst htl
      simp only [tailToks, stmtToks, kw, List.append_assoc, List.cons_append, List.nil_append, List.append_nil, isOpen,
        Bool.false_eq_true, if_false, selectTailToks_none, List.length_append, List.length_cons] at hn ⊢
      have := selectTail_clauses (n := n) (cols := cs.map (valTree f)) (rest := []) h2 h7 (h3 n hW) (h4 n hO) (h5 n hL)
        (h6 n hK) (by simp only [List.length_append]; omega) trivial
      simp only [List.append_nil, kw, List.cons_append, List.nil_append] at this
      simp only [stmt, if_true]
      rw [selectStmt_cols h1, select_cols h1 (by omega), this]
      rfl
    | count t js w o k =>
      obtain ⟨h2, h7⟩ := hs
      simp only [endsBeforeWhere, Bool.and_eq_true, Option.isNone_iff_eq_none, List.isEmpty_iff] at he
      obtain ⟨⟨rfl, rfl⟩, hk⟩ := he
      have hk := isNone_val hk
      subst hk
      have htl : tl = .none := by cases tl <;> first | rfl | exact absurd ht id
      subst htl
      simp only [tailToks, stmtToks, kw, List.append_assoc, List.cons_append, List.nil_append, List.append_nil, isOpen,
        Bool.false_eq_true, if_false, selectTailToks_none, parens, List.length_append, List.length_cons] at hn ⊢
      have := selectTail_clauses (n := n) (cols := [.call b!"count" [.star]]) (rest := []) h2 h7 (h3 n hW) (h4 n hO)
        (h5 n hL) (h6 n hK) (by simp only [List.length_append]; omega) trivial
      simp only [List.append_nil, kw, List.cons_append, List.nil_append] at this
      simp [stmt, selectStmt, select, count_star (n := n) (by omega), this, filteredTree]
    | exists_ nn op t js w o l k =>
      obtain ⟨h2, h7⟩ := hs
      simp only [endsBeforeWhere, Bool.and_eq_true, Option.isNone_iff_eq_none, List.isEmpty_iff] at he
      obtain ⟨⟨⟨⟨rfl, rfl⟩, rfl⟩, hl⟩, hk⟩ := he
      have hl := isNone_val hl
      have hk := isNone_val hk
      subst hl hk
      have htl : tl = .none := by cases tl <;> first | rfl | exact absurd ht id
      subst htl
      simp only [tailToks, stmtToks, kw, List.append_assoc, List.cons_append, List.nil_append, List.append_nil, isOpen,
        if_true, selectTailToks_none, List.length_append, List.length_cons] at hn ⊢
      have := selectTail_clauses (n := n) (cols := [.const (.num b!"1")]) (rest := [.punct ')']) h2 h7 (h3 n hW) (h4 n hO)
        (h5 n hL) (h6 n hK) (by simp only [List.length_append]; omega) rfl
      simp only [kw, List.cons_append, List.nil_append] at this
      have hc := one_const (n := n) (by omega)
      cases nn <;> simp [stmt, notToks, kw, selectStmt, opens, existsP, inParens, after, select, hc, this, close,
        filteredTree]
    | delete t us w r =>
      obtain ⟨h1, h9⟩ := hs
      obtain ⟨rfl, rfl, rfl⟩ := hso rfl
      simp only [endsBeforeWhere, Bool.and_eq_true, Option.isNone_iff_eq_none, List.isEmpty_iff] at he
      obtain ⟨rfl, rfl⟩ := he
      have htl : tl = .none := by cases tl <;> first | rfl | exact absurd ht id
      subst htl
      simp only [tailToks, stmtToks, kw, List.append_assoc, List.cons_append, List.nil_append, List.append_nil, isOpen,
        Bool.false_eq_true, if_false, whereToks_none, returningToks_nil, List.length_append, List.length_cons] at hn ⊢
      have l0 : Leads [b!"returning"] ([] : List Tok) := trivial
      have e1 := (h3 n hW).reads _ _ l0 (by decide) (by decide) (by decide)
      have l1 := (h3 n hW).leads _ _ l0
      have hF := from_reads (n := n) (w := b!"using") h9 (by decide) (by omega) l1
      have l2 : Leads (b!"using" :: afterTables) (tablesToks f b!"using" us ++ (W ++ [])) := by
        unfold tablesToks
        split
        · exact l1.mono fun w hw => .tail _ hw
        · exact .head _
      have e5 := relation_reads h1 (noDot_of (l2.ends (c := cont0) (by decide) rfl)) (l2.no (by decide))
      simp only [List.append_nil] at e1 hF e5
      have e2 : returningP n [] = some ([], []) := rfl
      simp [stmt, after, deleteStmt, e5, hF, e1, e2, filteredTree]
  unfold parse
  rw [key _ (Nat.le_refl _)]

end

end Verif.Generator.Gram
