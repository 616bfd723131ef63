import Verif.Generator.PropsGram4

/- Property C89: how statements are read. -/
namespace Verif.Generator.Gram
open Verif.Analysis Verif.Postgres Verif.Generator.Lex Print

section
variable {α : Type} {f : α → Bytes}

/-! ### SELECT -/

theorem Leads.clause {ks : List Bytes} {k : Bytes} {x : Option (List Tok)} {rest : List Tok} (h : Leads ks rest) :
    Leads (k :: ks) (clauseToks (kw k) x ++ rest) := by
  cases x with
  | none => exact h.mono fun w hw => .tail _ hw
  | some x => exact .head _

theorem Leads.order {ks : List Bytes} {o : List OrderBy} {rest : List Tok} (h : Leads ks rest) :
    Leads (b!"order" :: ks) (orderByToks o ++ rest) := by
  unfold orderByToks
  split
  · exact h.mono fun w hw => .tail _ hw
  · exact .head _

theorem Leads.returning {ks : List Bytes} {r : List (VExpr α)} {rest : List Tok} (h : Leads ks rest) :
    Leads (b!"returning" :: ks) (returningToks f r ++ rest) := by
  unfold returningToks
  split
  · exact h.mono fun w hw => .tail _ hw
  · exact .head _

theorem Leads.joins {ks : List Bytes} {js : List (TableJoin α)} {rest : List Tok} (h : Leads ks rest) :
    Leads (joinWords ++ ks) (js.flatMap (tableJoinToks f) ++ rest) := by
  cases js with
  | nil => exact h.mono fun w hw => List.mem_append.2 (.inr hw)
  | cons x xs =>
    show Leads (joinWords ++ ks) (tableJoinToks f x ++ xs.flatMap (tableJoinToks f) ++ rest)
    rw [tableJoinToks]
    cases ht : x.type with
    | none => exact List.mem_append.2 (.inl (by decide))
    | some t => cases t <;> exact List.mem_append.2 (.inl (by decide))

theorem flat_length {β : Type} (g : β → List Tok) : ∀ (l : List β), (∀ x ∈ l, 1 ≤ (g x).length) →
    l.length ≤ (l.flatMap g).length
  | [], _ => by simp
  | x :: l, h => by
    have := flat_length g l fun y hy => h y (.tail _ hy)
    have := h x (.head _)
    simp only [List.flatMap_cons, List.length_append, List.length_cons]
    omega

theorem joinToks_pos (j : TableJoin α) : 1 ≤ (tableJoinToks f j).length := by
  simp only [tableJoinToks, kw, List.length_append, List.length_cons]; omega

theorem rel_begins {r : RelIdent} (h : RelGram r) : Begins (relToks r) := by
  rw [show relToks r = qualToks r.qualifier ++ [.name r.name] ++
    (if r.alias.length > 0 then kw b!"as" ++ [.word (lower r.alias)] else []) by simp [relToks]]
  exact (qual_begins h.1).append

theorem where_clause {n : Nat} {w : Option (BList α)} (h : WhereGram f w) (hn : (whereToks f w).length ≤ n) :
    Clause b!"where" (whereP n) (whereToks f w) (w.map (condsTree f)) :=
  ⟨fun _ _ hr hk _ hw => where_reads h hn hr hk hw, fun _ _ hr => hr.clause⟩

theorem order_clause {n : Nat} {o : List OrderBy} (h : ∀ x ∈ o, WordOk x.column.qualifier)
    (hn : (orderByToks o).length ≤ n) : Clause b!"order" (orderP n) (orderByToks o) (o.map orderTree) :=
  ⟨fun _ _ hr _ _ hw => orderBy_reads h hn hr hw, fun _ _ hr => hr.order⟩

theorem limit_clause {n : Nat} (w : Bytes) {l : LimitVal α} (h : LimitGram f l)
    (hn : (clauseToks (kw w) (limitToks f l)).length ≤ n) :
    Clause w (opt w [] (expr n)) (clauseToks (kw w) (limitToks f l)) (limitTree f l) :=
  ⟨fun _ _ hr hk _ hw => limit_reads h hn hr hk hw, fun _ _ hr => hr.clause⟩

/-- What follows the columns of a SELECT, with any clauses. -/
theorem selectTail_clauses {n : Nat} {cols : List Ex} {t : RelIdent} {js : List (TableJoin α)} {W O L K rest : List Tok}
    {w : Option Ex} {o : List OrderT} {l k : Option Ex} (h1 : RelGram t) (h2 : ∀ j ∈ js, JoinGram f j)
    (h3 : Clause b!"where" (whereP n) W w) (h4 : Clause b!"order" (orderP n) O o)
    (h5 : Clause b!"limit" (opt b!"limit" [] (expr n)) L l) (h6 : Clause b!"offset" (opt b!"offset" [] (expr n)) K k)
    (hn : (relToks t ++ js.flatMap (tableJoinToks f)).length + 1 ≤ n) (hr : Leads [] rest) :
    selectTail n cols (kw b!"from" ++ (relToks t ++ (js.flatMap (tableJoinToks f) ++ (W ++ (O ++ (L ++ (K ++ rest))))))) =
      some (⟨cols, relTree t, js.map (joinTree f), w, o, l, k⟩, rest) := by
  have hrel := (rel_begins h1).length
  have hj := flat_length (tableJoinToks f) js fun j _ => joinToks_pos j
  simp only [List.length_append] at hn
  have l1 := h6.leads _ _ hr
  have l2 := h5.leads _ _ l1
  have l3 := h4.leads _ _ l2
  have l4 := h3.leads _ _ l3
  have l5 := l4.joins (f := f) (js := js)
  have e1 := h6.reads _ _ hr (by decide) (by decide) (by decide)
  have e2 := h5.reads _ _ l1 (by decide) (by decide) (by decide)
  have e3 := h4.reads _ _ l2 (by decide) (by decide) (by decide)
  have e4 := h3.reads _ _ l3 (by decide) (by decide) (by decide)
  have e5 := joins_reads (n := n) l4 (by decide) (by decide) (by decide) js n h2 (by omega) (by omega)
  have e6 := relation_reads h1 (noDot_of (l5.ends (c := cont0) (by decide) rfl)) (l5.no (by decide))
  unfold selectTail
  simp only [kw, List.cons_append, List.nil_append, after, if_true]
  rw [e6, Option.bind_some, e5, Option.bind_some, e4, Option.bind_some, e3, Option.bind_some, e2, Option.bind_some, e1]
  rfl

/-- What follows the columns of a SELECT. -/
theorem selectTail_reads {n : Nat} {cols : List Ex} {t : RelIdent} {js : List (TableJoin α)} {w : Option (BList α)}
    {o : List OrderBy} {l k : LimitVal α} {rest : List Tok} (h : SelGram f t js w o l k)
    (hn : (relToks t ++ selectTailToks f js w o l k).length + 1 ≤ n) (hr : Leads [] rest) :
    selectTail n cols (kw b!"from" ++ relToks t ++ selectTailToks f js w o l k ++ rest) =
      some (selTree f cols t js w o l k, rest) := by
  obtain ⟨h1, h2, h3, h4, h5, h6⟩ := h
  simp only [selectTailToks, List.length_append] at hn
  have := selectTail_clauses (n := n) (cols := cols) (rest := rest) h1 h2 (where_clause h3 (by omega))
    (order_clause h4 (by omega)) (limit_clause b!"limit" h5 (by omega)) (limit_clause b!"offset" h6 (by omega))
    (by simp only [List.length_append]; omega) hr
  simpa only [selTree, selectTailToks, List.append_assoc] using this

theorem comma_split (x : List Tok) (l : List (List Tok)) : ∃ r, commaToks (x :: l) = x ++ r ∧ ∀ s,
    opens (r ++ .word b!"from" :: s) = false := by
  cases l with
  | nil => exact ⟨[], by simp [commaToks], fun s => rfl⟩
  | cons y l => exact ⟨.punct ',' :: commaToks (y :: l), rfl, fun s => rfl⟩

theorem select_cols {n : Nat} {l : List (VExpr α)} {rest : List Tok} (hl : ValsGram f l)
    (hn : (commaToks (l.map (valToks f))).length ≤ n) :
    select n (commaToks (l.map (valToks f)) ++ .word b!"from" :: rest) =
      selectTail n (l.map (valTree f)) (.word b!"from" :: rest) := by
  cases l with
  | nil => simp [commaToks, select]
  | cons v vs =>
    have hv := vals_reads (n := n) (l := v :: vs) (rest := .word b!"from" :: rest) (by simp) hl hn rfl (by simp)
    have hb : Begins (commaToks ((v :: vs).map (valToks f)) ++ .word b!"from" :: rest) := by
      obtain ⟨r, hr, _⟩ := comma_split (valToks f v) (vs.map (valToks f))
      rw [List.map_cons, hr]
      exact ((val_begins v (hl v (.head _))).append).append
    generalize commaToks ((v :: vs).map (valToks f)) ++ .word b!"from" :: rest = ts at *
    unfold select
    split
    · next w r =>
      rw [if_neg, hv]
      · rfl
      · rcases hb with h | h
        · exact start_ne h (by decide) (by decide)
        · cases h
    · rw [hv]; rfl

theorem selectStmt_cols {n : Nat} {l : List (VExpr α)} {rest : List Tok} (hl : ValsGram f l) :
    selectStmt n (commaToks (l.map (valToks f)) ++ .word b!"from" :: rest) =
      (select n (commaToks (l.map (valToks f)) ++ .word b!"from" :: rest)).map fun y => (.select y.1, y.2) := by
  cases l with
  | nil => simp [commaToks, selectStmt]
  | cons v vs =>
    have key : ∀ w r, commaToks ((v :: vs).map (valToks f)) ++ .word b!"from" :: rest = .word w :: r →
        w ≠ b!"not" ∧ (w = b!"exists" → opens r = false) := by
      intro w r he
      have hb : Begins (commaToks ((v :: vs).map (valToks f)) ++ .word b!"from" :: rest) := by
        obtain ⟨r, hr, _⟩ := comma_split (valToks f v) (vs.map (valToks f))
        rw [List.map_cons, hr]
        exact ((val_begins v (hl v (.head _))).append).append
      rw [he] at hb
      refine ⟨?_, ?_⟩
      · rcases hb with h | h
        · exact start_ne h (by decide) (by decide)
        · cases h
      · rintro rfl
        have hv := hl v (.head _)
        have hops : ∀ (v : VExpr α), ValGram f v → ∀ (s r : List Tok), valToks f v ++ s = .word b!"exists" :: r →
            opens s = false → opens r = false := by
          intro v
          induction v with
          | default => intro _ s r he; simp [valToks, kw] at he
          | param a =>
            intro h s r he _
            rcases atom_inv h with ⟨t, ht, hc, _⟩ | ⟨w, ht, hw, _⟩
            · simp only [valToks, ht, List.cons_append, List.cons.injEq] at he
              rw [he.1] at hc; exact absurd hc (by decide)
            · simp only [valToks, ht, List.cons_append, List.cons.injEq, Tok.word.injEq] at he
              rw [he.1] at hw; exact absurd hw (by decide)
          | lit a =>
            intro h s r he _
            rcases atom_inv h with ⟨t, ht, hc, _⟩ | ⟨w, ht, hw, _⟩
            · simp only [valToks, ht, List.cons_append, List.cons.injEq] at he
              rw [he.1] at hc; exact absurd hc (by decide)
            · simp only [valToks, ht, List.cons_append, List.cons.injEq, Tok.word.injEq] at he
              rw [he.1] at hw; exact absurd hw (by decide)
          | col c =>
            intro _ s r he _
            simp only [valToks, colToks, qualToks] at he
            split at he
            · simp at he; rw [← he.2]; rfl
            · simp at he
          | xcol n => intro _ s r he; simp [valToks] at he
          | cast x t ih =>
            intro h s r he _
            simp only [valToks, List.append_assoc, List.cons_append] at he
            exact ih h.1 _ _ he rfl
          | nullif x y => intro _ s r he; simp [valToks, kw] at he
          | coalesce x y => intro _ s r he; simp [valToks, kw] at he
          | call fn x =>
            intro h s r he _
            simp only [valToks, List.cons_append, List.nil_append, List.cons.injEq, Tok.word.injEq] at he
            have := h.1
            rw [he.1] at this; exact absurd this (by decide)
          | quantified => intro h; exact h.elim
          | absent => intro h; exact h.elim
        obtain ⟨s, hs, hs'⟩ := comma_split (valToks f v) (vs.map (valToks f))
        rw [List.map_cons, hs, List.append_assoc] at he
        exact hops v hv _ _ he (hs' _)
    generalize commaToks ((v :: vs).map (valToks f)) ++ .word b!"from" :: rest = ts at *
    unfold selectStmt
    split
    · next w r =>
      obtain ⟨k1, k2⟩ := key w r rfl
      rw [if_neg, if_neg k1]
      rintro ⟨rfl, h⟩
      rw [k2 rfl] at h
      cases h
    · rfl

/-! ### The tables of UPDATE and DELETE -/

/-- The words after the tables. -/
def afterTables : List Bytes := [b!"where", b!"returning"]

theorem joinExprs {l : List (TableExpr α)} (h : ∀ x ∈ l, ∃ j, x = .join j ∧ JoinGram f j) :
    ∃ js : List (TableJoin α), l = js.map .join ∧ ∀ j ∈ js, JoinGram f j := by
  induction l with
  | nil => exact ⟨[], rfl, by simp⟩
  | cons x l ih =>
    obtain ⟨j, rfl, hj⟩ := h x (.head _)
    obtain ⟨js, rfl, hjs⟩ := ih fun y hy => h y (.tail _ hy)
    exact ⟨j :: js, rfl, fun y hy => by
      rcases List.mem_cons.1 hy with rfl | hy
      · exact hj
      · exact hjs y hy⟩

theorem flatMap_joins (js : List (TableJoin α)) :
    (js.map TableExpr.join).flatMap (tableToks f) = js.flatMap (tableJoinToks f) := by
  induction js with
  | nil => rfl
  | cons j js ih => simp [List.flatMap_cons, tableToks, ih]

theorem joinParts (js : List (TableJoin α)) : (js.map TableExpr.join).filterMap (joinPart f) = js.map (joinTree f) := by
  induction js with
  | nil => rfl
  | cons j js ih => simp [joinPart, ih]

theorem from_reads {n : Nat} {w : Bytes} {l : List (TableExpr α)} {rest : List Tok} (h : TablesGram f l)
    (hw : w ∉ afterTables) (hn : (tablesToks f w l).length ≤ n) (hr : Leads afterTables rest) :
    fromP n w (tablesToks f w l ++ rest) = some (tablesTree f l, rest) := by
  unfold fromP
  cases l with
  | nil =>
    have := opt_none (ws := []) (p := tables n) (hr.no hw)
    simp only [tablesToks, List.length_nil, if_true, List.nil_append, this]
    rfl
  | cons x l =>
    cases x with
    | rel r =>
      obtain ⟨h1, h2⟩ := h
      obtain ⟨js, rfl, hjs⟩ := joinExprs h2
      have hj := flat_length (tableJoinToks f) js fun j _ => joinToks_pos j
      simp only [tablesToks, List.length_cons, Nat.add_eq_zero_iff, Nat.succ_ne_self, and_false, if_false,
        List.flatMap_cons, tableToks, flatMap_joins, List.length_append, kw] at hn
      have l5 := hr.joins (f := f) (js := js)
      have e5 := joins_reads (n := n) hr (by decide) (by decide) (by decide) js n hjs (by omega) (by omega)
      have e6 := relation_reads h1 (noDot_of (l5.ends (c := cont0) (by decide) rfl)) (l5.no (by decide))
      have ht : tables n (relToks r ++ (js.flatMap (tableJoinToks f) ++ rest)) =
          some (.tables (relTree r) (js.map (joinTree f)), rest) := by
        have hb := (rel_begins h1).append (b := js.flatMap (tableJoinToks f) ++ rest)
        generalize relToks r ++ (js.flatMap (tableJoinToks f) ++ rest) = ts at *
        unfold tables
        split
        · have := e6
          simp [relation, isName] at this
        · rw [e6, Option.bind_some, e5]; rfl
      have := opt_some (w := w) (ws := []) (p := tables n) ht
      have hfm := joinParts (f := f) js
      simp only [tablesToks, List.length_cons, Nat.add_eq_zero_iff, Nat.succ_ne_self, and_false, if_false,
        List.flatMap_cons, tableToks, flatMap_joins, kw, List.append_assoc, List.cons_append, List.nil_append]
      rw [this]
      simp only [Option.map_some, Option.getD_some, tablesTree, hfm]
    | join j => exact h.elim
    | values => exact h.elim

/-! ### ON CONFLICT -/

theorem upToClose_append : ∀ (ts : List Tok) (d : Nat) (a r rest : List Tok), upToClose d ts = some (a, r) →
    upToClose d (ts ++ rest) = some (a, r ++ rest)
  | [], d, a, r, rest, h => by cases d <;> simp [upToClose] at h
  | t :: ts, d, a, r, rest, h => by
    unfold upToClose at h
    split at h
    · next heq =>
      cases heq
      simp only [Option.some.injEq, Prod.mk.injEq] at h
      obtain ⟨rfl, rfl⟩ := h
      simp [upToClose]
    · next heq =>
      cases heq
      rw [Option.map_eq_some_iff] at h
      obtain ⟨y, hy, he⟩ := h
      cases he
      have ih := upToClose_append ts _ _ _ rest hy
      simp [upToClose, ih]
    · next heq =>
      cases heq
      rw [Option.map_eq_some_iff] at h
      obtain ⟨y, hy, he⟩ := h
      cases he
      have ih := upToClose_append ts _ _ _ rest hy
      simp [upToClose, ih]
    · next h1 h2 h3 heq =>
      cases heq
      rw [Option.map_eq_some_iff] at h
      obtain ⟨y, hy, he⟩ := h
      cases he
      have ih := upToClose_append ts _ _ _ rest hy
      rw [List.cons_append, upToClose]
      · rw [ih]; rfl
      all_goals simp_all
    · cases ‹t :: ts = []›

theorem upToDo_reads : ∀ (ts rest : List Tok), .word b!"do" ∉ ts →
    upToDo (ts ++ .word b!"do" :: rest) = some (ts, .word b!"do" :: rest)
  | [], rest, _ => by simp [upToDo]
  | t :: ts, rest, h => by
    have ih := upToDo_reads ts rest fun hm => h (.tail _ hm)
    rw [List.cons_append]
    unfold upToDo
    split
    · next w r heq =>
      cases heq
      rw [if_neg (by rintro rfl; exact h (.head _)), ih]
      rfl
    · next heq =>
      cases heq
      rw [ih]
      rfl
    · next heq => cases heq

theorem paren_reads {e : Bytes} (h : ParenText e) (rest : List Tok) :
    upToClose 0 (lex e ++ .punct ')' :: rest) = some (lex e, rest) := by
  unfold ParenText at h
  rw [Option.map_eq_some_iff] at h
  obtain ⟨y, hy, he⟩ := h
  -- what is left is nothing
  have key : ∀ (ts : List Tok) (d : Nat) (a r : List Tok), upToClose d ts = some (a, r) →
      ts.length = a.length + 1 + r.length := by
    intro ts
    induction ts with
    | nil => intro d a r h; cases d <;> simp [upToClose] at h
    | cons t ts ih =>
      intro d a r h
      unfold upToClose at h
      split at h
      · next heq => cases heq; cases h; simp; omega
      · next heq =>
        cases heq
        rw [Option.map_eq_some_iff] at h
        obtain ⟨y, hy, he⟩ := h
        cases he
        have := ih _ _ _ hy
        simp only [List.length_cons]; omega
      · next heq =>
        cases heq
        rw [Option.map_eq_some_iff] at h
        obtain ⟨y, hy, he⟩ := h
        cases he
        have := ih _ _ _ hy
        simp only [List.length_cons]; omega
      · next heq =>
        cases heq
        rw [Option.map_eq_some_iff] at h
        obtain ⟨y, hy, he⟩ := h
        cases he
        have := ih _ _ _ hy
        simp only [List.length_cons]; omega
      · cases ‹t :: ts = []›
  have hlen := key _ _ _ _ (show upToClose 0 (lex e ++ [.punct ')']) = some (y.1, y.2) from hy)
  rw [he] at hlen
  simp only [List.length_append, List.length_cons, List.length_nil] at hlen
  have h2 : y.2 = [] := List.length_eq_zero_iff.1 (by omega)
  have hy' : upToClose 0 (lex e ++ [.punct ')']) = some (lex e, []) := by rw [hy, ← he, ← h2]
  have := upToClose_append _ _ _ _ rest hy'
  simpa using this

def targetPart : Option ConflictTarget → List Tok
  | none => []
  | some t => targetToks t

theorem conflictToks_eq (c : ConflictClause) : conflictToks c = targetPart c.target ++
    (if c.update.length = 0 then kw b!"do" ++ kw b!"nothing"
      else kw b!"do" ++ kw b!"update" ++ kw b!"set" ++ commaToks (c.update.map setToks)) := by
  unfold conflictToks
  cases c.target <;> rfl

theorem target_reads {t : Option ConflictTarget} {rest : List Tok} (h : ∀ x, t = some x → TargetGram x) :
    targetP (targetPart t ++ .word b!"do" :: rest) =
      some (targetTree t, .word b!"do" :: rest) := by
  cases t with
  | none => simp [targetPart, targetP, targetTree]
  | some t =>
    cases t with
    | constraint n => simp [targetPart, targetToks, kw, targetP, after, name1, isName, targetTree]
    | index e p =>
      obtain ⟨h1, h2, h3, h4⟩ := h _ rfl
      simp only [targetPart, targetToks, parens, List.cons_append, List.append_assoc, List.nil_append, targetP]
      rw [paren_reads h1, Option.bind_some]
      split
      · next hp =>
        have := opt_some (w := b!"where") (ws := []) (p := upToDo) (upToDo_reads (lex p) rest h4)
        simp only [kw, List.cons_append, List.nil_append]
        rw [this]
        rfl
      · next hp =>
        rw [List.nil_append, opt_none (by simp)]
        simp [targetTree, h3 (by omega)]

theorem set_reads {n : Nat} (x : Bytes) (rest : List Tok) (hn : 3 ≤ n) (hr : Ends cont7 rest) :
    set1 n (setToks x ++ rest) = some ((.name x, .col [.word b!"excluded", .name x]), rest) := by
  have := col_reader (n := n) (c := { qualifier := b!"excluded", name := x }) (by intro _; exact (by decide : nameWord (lower b!"excluded") = true))
    (by simp [colToks, qualToks]; omega) rest hr
  simp only [colToks, qualToks, colPath] at this
  simp [set1, setToks, name1, isName]
  simpa [show lower b!"excluded" = b!"excluded" by decide] using this

theorem conflict_reads {n : Nat} {c : ConflictClause} {ks : List Bytes} {rest : List Tok} (h : ConflictGram c)
    (hn : (conflictToks c).length ≤ n) (hr : Leads ks rest) (hk : ks.all (fun w => !cont7 (.word w)) = true) :
    conflict n (conflictToks c ++ rest) = some (conflictTree c, rest) := by
  have ht : ∀ r, targetP (targetPart c.target ++ .word b!"do" :: r) = some (targetTree c.target, .word b!"do" :: r) :=
    fun r => target_reads h
  unfold conflict
  rw [conflictToks_eq, List.append_assoc]
  rw [conflictToks_eq] at hn
  generalize targetPart c.target = T at *
  split at hn
  · next h0 =>
    rw [if_pos h0]
    simp only [kw, List.cons_append, List.nil_append]
    rw [ht]
    have : c.update = [] := List.length_eq_zero_iff.1 h0
    simp [after, action, conflictTree, this]
  · next h0 =>
    rw [if_neg h0]
    have hne : c.update ≠ [] := fun h => h0 (by simp [h])
    simp only [kw, List.cons_append, List.nil_append, List.length_append, List.length_cons] at hn ⊢
    have he := comma_each setToks c.update
    have hl := comma_length setToks c.update (by simp [setToks])
    have h3 : 5 ≤ n := by
      obtain ⟨x, hx⟩ := List.exists_mem_of_ne_nil _ hne
      have := he x hx
      simp only [setToks, List.length_cons] at this
      omega
    have hlist := listOf_comma (p := set1 n) setToks (fun x => (Tok.name x, Ex.col [.word b!"excluded", .name x]))
      hr.noComma c.update n hne (by omega) (fun x _ => set_reads x rest (by omega) (hr.ends hk rfl))
      fun x _ r => set_reads x _ (by omega) rfl
    rw [ht]
    simp [after, action, hlist, conflictTree]

/-! ### The whole statement -/

/-- INSERT, with rows whose cells are read. -/
theorem insert_reads {n : Nat} {t : RelIdent} {cs : List Bytes} {o : Option Overriding}
    {rows : List (List (List Tok × Ex))} {c : Option ConflictClause} {r : List (VExpr α)} (ht : RelGram t)
    (hcs : cs ≠ []) (hrows : rows ≠ []) (hrow : ∀ row ∈ rows, row ≠ [] ∧ ∀ y ∈ row, 1 ≤ y.1.length ∧ Reader n y.1 y.2)
    (hc : ∀ x, c = some x → ConflictGram x) (hr : ValsGram f r)
    (hn : (relToks t ++ namesToks cs ++ commaToks (rows.map fun row => parens (commaToks (row.map (·.1)))) ++
      onConflictToks c ++ returningToks f r).length ≤ n) :
    insertStmt n (relToks t ++ (namesToks cs ++
      ((match o with | none => [] | some o => kw b!"overriding" ++ overridingToks o ++ kw b!"value") ++
      (kw b!"values" ++ (commaToks (rows.map fun row => parens (commaToks (row.map (·.1)))) ++
      (onConflictToks c ++ returningToks f r)))))) =
      some (insertTree f t cs o (rows.map fun row => row.map (·.2)) c r, []) := by
  simp only [List.length_append] at hn
  have l0 : Leads [] ([] : List Tok) := trivial
  have l1 : Leads [b!"returning"] (returningToks f r) := by simpa using l0.returning (f := f) (r := r)
  have e1 : returningP n (returningToks f r) = some (r.map (valTree f), []) := by
    simpa using returning_reads (n := n) hr (by omega) l0 (by decide) (by decide)
  have l2 : Leads [b!"on", b!"returning"] (onConflictToks c ++ returningToks f r) := by
    cases c with
    | none => exact l1.mono (by simp)
    | some c => exact .head _
  have e2 : opt b!"on" [b!"conflict"] (conflict n) (onConflictToks c ++ returningToks f r) =
      some (c.map conflictTree, returningToks f r) := by
    cases c with
    | none => exact opt_none (l1.no (by decide))
    | some c =>
      simp only [onConflictToks, clauseToks, Option.map_some, kw, List.length_append, List.length_cons] at hn
      have := conflict_reads (n := n) (hc c rfl) (by omega) l1 (by decide)
      exact opt_some (ws := [b!"conflict"]) (by simpa [after, kw] using this)
  have hrl := comma_length (fun row : List (List Tok × Ex) => parens (commaToks (row.map (·.1)))) rows (by simp [parens])
  have hre := comma_each (fun row : List (List Tok × Ex) => parens (commaToks (row.map (·.1)))) rows
  have hrow1 : ∀ row ∈ rows, ∀ s, Gram.row n (parens (commaToks (row.map (·.1))) ++ s) = some (row.map (·.2), s) := by
    intro x hx s
    obtain ⟨k1, k2⟩ := hrow x hx
    have hxl := comma_length (fun y : List Tok × Ex => y.1) x fun y hy => (k2 y hy).1
    have := hre x hx
    rw [show (parens (commaToks (x.map (·.1)))).length = (commaToks (x.map (·.1))).length + 2 by simp [parens]] at this
    have := list_reads (n := n) (k := n) (l := x) (rest := .punct ')' :: s) k1 (fun y hy => (k2 y hy).2) (by omega) rfl
      (by simp)
    simp [Gram.row, inParens, parens, this, close]
  have e3 : listOf (Gram.row n) n (commaToks (rows.map fun row => parens (commaToks (row.map (·.1)))) ++
      (onConflictToks c ++ returningToks f r)) =
      some (rows.map fun row => row.map (·.2), onConflictToks c ++ returningToks f r) :=
    listOf_comma (p := Gram.row n) _ (fun row : List (List Tok × Ex) => row.map (·.2)) l2.noComma rows n hrows (by omega)
      (fun x hx => hrow1 x hx _) fun x hx s => hrow1 x hx _
  have e4 := fun rest => names_reads (n := n) (rest := rest) hcs (by omega)
  have e5 := fun rest => relation_reads (rest := namesToks cs ++ rest) ht (by exact (by decide : '(' ≠ '.')) (by simp [namesToks, parens])
  unfold insertStmt
  rw [e5, Option.bind_some, e4, Option.bind_some]
  cases o with
  | none =>
    rw [List.nil_append, opt_none (by simp [kw])]
    simp only [Option.bind_some, kw, List.cons_append, List.nil_append, after, if_true]
    rw [e3, Option.bind_some, e2, Option.bind_some, e1]
    rfl
  | some o =>
    have : opt b!"overriding" [] overridingP (kw b!"overriding" ++ overridingToks o ++ kw b!"value" ++ (kw b!"values" ++
        (commaToks (rows.map fun row => parens (commaToks (row.map (·.1)))) ++ (onConflictToks c ++ returningToks f r)))) =
        some (some (overridingWord o), kw b!"values" ++
        (commaToks (rows.map fun row => parens (commaToks (row.map (·.1)))) ++ (onConflictToks c ++ returningToks f r))) := by
      cases o <;> simp [kw, opt, after, overridingToks, overridingP, overridingWord]
    simp only [this, Option.bind_some]
    simp only [kw, List.cons_append, List.nil_append, after, if_true]
    rw [e3, Option.bind_some, e2, Option.bind_some, e1]
    rfl

end

end Verif.Generator.Gram
