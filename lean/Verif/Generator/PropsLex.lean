import Verif.Generator.Toks

/-
C87, first part: the text of a statement consists of the tokens that are meant.
-/
namespace Verif.Generator.Lex
open Verif.Analysis Verif.Postgres Print

theorem Reads.of {x y : Bytes} {a b : List Tok} (h : Reads x a) (hx : y = x) (ha : b = a) : Reads y b := by
  rw [hx, ha]; exact h

/-- The text may follow any other. -/
def Trails (y : Bytes) (b : List Tok) : Prop := SepHead y ∧ Reads y b

theorem Trails.nil : Trails [] [] := ⟨trivial, Closed.nil.reads⟩
theorem Trails.of {x y : Bytes} {a b : List Tok} (h : Trails x a) (hx : y = x) (ha : b = a) : Trails y b := by
  rw [hx, ha]; exact h
theorem Reads.trails {x y : Bytes} {a b : List Tok} (h : Reads x a) (hy : Trails y b) : Reads (x ++ y) (a ++ b) :=
  h.append hy.1 hy.2

theorem Trails.append {x y : Bytes} {a b : List Tok} (h : Trails x a) (hy : Trails y b) :
    Trails (x ++ y) (a ++ b) := by
  refine ⟨?_, h.2.trails hy⟩
  cases x with
  | nil => exact hy.1
  | cons c cs => exact h.1

/-- A fixed text that begins with a separator and is complete. -/
theorem Trails.lit {x y : Bytes} {a b : List Tok} (hs : SepHead x) (hne : x ≠ []) (hx : Closed x a) (hy : Reads y b) :
    Trails (x ++ y) (a ++ b) := ⟨hs.append hne, hx.append_reads hy⟩

/-! ### Names -/

theorem closed_qual {q : Bytes} (h : OptIdent q) :
    Closed (if q.length > 0 then q ++ b!"." else []) (qualToks q) := by
  rcases h with rfl | h
  · exact Closed.nil
  · have : q.length > 0 := List.length_pos_iff.2 h.ne_nil
    simp only [this, if_true, qualToks]
    exact closed_qualifier h

theorem reads_col {c : ColIdent} (h : ColPlain c) : Reads (colText c) (colToks c) :=
  (closed_qual h.1).append_reads (reads_quoted_ident h.2)

theorem reads_rel {r : RelIdent} (h : RelPlain r) : Reads (relText r) (relToks r) := by
  refine ((closed_qual h.1).append_reads ((reads_quoted_ident h.2.1).trails
    (y := if r.alias.length > 0 then b!" AS " ++ r.alias else [])
    (b := if r.alias.length > 0 then kw b!"as" ++ [.word (lower r.alias)] else []) ?_)).of rfl (by simp [relToks])
  rcases h.2.2 with h | h
  · rw [h]; exact Trails.nil
  · have : r.alias.length > 0 := List.length_pos_iff.2 h.ne_nil
    simp only [this, if_true]
    exact Trails.lit (by decide) (by decide) (show Closed b!" AS " (kw b!"as") by decide) (reads_ident h)

theorem reads_names : ∀ (l : List Bytes), (∀ n ∈ l, Ident n) →
    Reads (commas (l.map quoted)) (commaToks (l.map fun n => [.name n]))
  | [], _ => Closed.nil.reads
  | [n], h => reads_quoted_ident (h n (List.mem_cons_self ..))
  | n :: m :: l, h => by
    have ih := reads_names (m :: l) fun k hk => h k (List.mem_cons_of_mem _ hk)
    have hn := reads_quoted_ident (h n (List.mem_cons_self ..))
    exact (hn.trails (Trails.lit (by decide) (by decide) (show Closed b!", " [.punct ','] by decide) ih)).of rfl rfl

theorem reads_commas {β : Type} {g : β → Bytes} {gt : β → List Tok} : ∀ (l : List β),
    (∀ x ∈ l, Reads (g x) (gt x)) → Reads (commas (l.map g)) (commaToks (l.map gt))
  | [], _ => Closed.nil.reads
  | [x], h => h x (List.mem_cons_self ..)
  | x :: y :: l, h => by
    have ih := reads_commas (y :: l) fun k hk => h k (List.mem_cons_of_mem _ hk)
    exact ((h x (List.mem_cons_self ..)).trails
      (Trails.lit (by decide) (by decide) (show Closed b!", " [.punct ','] by decide) ih)).of rfl rfl

/-- `(x)`. -/
theorem closed_parens {x : Bytes} {a : List Tok} (h : Reads x a) : Closed (b!"(" ++ (x ++ b!")")) (parens a) := by
  have h1 : Closed (x ++ b!")") (a ++ [.punct ')']) := h.append_closed (by decide) (by decide) (by decide)
  exact (show Closed b!"(" [.punct '('] by decide).append h1

/-- `lead(x)`. -/
theorem reads_call {w x : Bytes} {v a : List Tok} (hw : Reads w v) (h : Reads x a) :
    Reads (w ++ (b!"(" ++ (x ++ b!")"))) (v ++ parens a) :=
  (hw.append_closed (by trivial) (by simp) (closed_parens h)).reads

section
variable {α : Type} {f : α → Bytes}

theorem reads_val : ∀ (v : VExpr α), ValPlain f v → Reads (valText f v) (valToks f v)
  | .default, _ => (show Whole b!"DEFAULT" by decide).reads
  | .param a, h => Whole.reads h
  | .col c, h => reads_col h
  | .xcol n, h => (show Closed b!"x." [.word b!"x", .punct '.'] by decide).append_reads (reads_quoted_ident h)
  | .lit s, h => Whole.reads h
  | .cast x t, h =>
    ((reads_val x h.1).trails (Trails.lit (by decide) (by decide) (show Closed b!"::" [.cast] by decide)
      (Whole.reads h.2))).of rfl rfl
  | .nullif x y, h => by
    have hy := reads_val y h.2
    have hx := (reads_val x h.1).trails
      (Trails.lit (by decide) (by decide) (show Closed b!", " [.punct ','] by decide) hy)
    exact (reads_call (show Whole b!"NULLIF" by decide).reads hx).of (by simp [valText]) rfl
  | .coalesce x y, h => by
    have hy := reads_val y h.2
    have hx := (reads_val x h.1).trails
      (Trails.lit (by decide) (by decide) (show Closed b!", " [.punct ','] by decide) hy)
    exact (reads_call (show Whole b!"COALESCE" by decide).reads hx).of (by simp [valText]) rfl
  | .call fn x, h => (reads_call (reads_ident h.1) (reads_val x h.2)).of rfl rfl
  | .quantified q x, h => by
    have hx := reads_val x h
    cases q with
    | any => exact (reads_call (show Whole b!"ANY" by decide).reads hx).of rfl rfl
    | some => exact (reads_call (show Whole b!"SOME" by decide).reads hx).of rfl rfl
    | all => exact (reads_call (show Whole b!"ALL" by decide).reads hx).of rfl rfl
  | .absent, _ => Closed.nil.reads

/-! ### Conditions -/

theorem closed_bin (op : BinOp) : Closed (b!" " ++ (binText op ++ b!" ")) (binToks op) := by
  cases op with
  | like n => cases n <;> decide
  | ilike n => cases n <;> decide
  | similar n => cases n <;> decide
  | distinct n => cases n <;> decide
  | _ => decide

theorem trails_binary {x y : Bytes} {a b : List Tok} (op : BinOp) (hy : Reads y b) (hx : Reads x a) :
    Reads (x ++ (b!" " ++ (binText op ++ (b!" " ++ y)))) (a ++ (binToks op ++ b)) := by
  have h := Trails.lit (x := b!" " ++ (binText op ++ b!" ")) (by trivial) (by simp) (closed_bin op) hy
  exact (hx.trails h).of (by simp) rfl

mutual
theorem reads_cond : ∀ (c : BExpr α), CondPlain f c → Reads (condText f c) (condToks f c)
  | .binary op l r, h => by
    exact (trails_binary op (reads_val r h.2) (reads_val l h.1)).of rfl (by simp [condToks])
  | .inList n x a, h => by
    have hp := closed_parens (Whole.reads (x := f a) h.2)
    cases n with
    | false =>
      have h2 := Trails.lit (by decide) (by decide) (show Closed b!" IN " (kw b!"in") by decide) hp.reads
      exact ((reads_val x h.1).trails h2).of (by simp [condText, notText]) (by simp [condToks, notToks])
    | true =>
      have h2 := Trails.lit (by decide) (by decide)
        (show Closed b!" NOT IN " (kw b!"not" ++ kw b!"in") by decide) hp.reads
      exact ((reads_val x h.1).trails h2).of (by simp [condText, notText]) (by simp [condToks, notToks])
  | .truth n t x, h => by
    have key : Trails (b!" IS " ++ (notText n ++ truthText t)) (kw b!"is" ++ (notToks n ++ truthToks t)) := by
      refine Trails.lit (by decide) (by decide) (by decide) ?_
      have e : notToks n ++ truthToks t = lex (notText n ++ truthText t) := by
        cases n <;> cases t <;> decide
      rw [e]
      exact Whole.reads (by cases n <;> cases t <;> decide)
    exact ((reads_val x h).trails key).of (by simp [condText]) (by simp [condToks])
  | .null n x, h => by
    have key : Trails (b!" IS " ++ (notText n ++ b!"NULL")) (kw b!"is" ++ (notToks n ++ kw b!"null")) := by
      refine Trails.lit (by decide) (by decide) (by decide) ?_
      have e : notToks n ++ kw b!"null" = lex (notText n ++ b!"NULL") := by cases n <;> decide
      rw [e]
      exact Whole.reads (by cases n <;> decide)
    exact ((reads_val x h).trails key).of (by simp [condText]) (by simp [condToks])
  | .between x lo hi, h => by
    have h2 := Trails.lit (by decide) (by decide) (show Closed b!" AND " (kw b!"and") by decide) (reads_val hi h.2.2)
    have h3 := Trails.lit (by decide) (by decide) (show Closed b!" BETWEEN " (kw b!"between") by decide)
      ((reads_val lo h.2.1).trails h2)
    exact ((reads_val x h.1).trails h3).of (by simp [condText]) (by simp [condToks])
  | .bare x, h => (reads_val x h).of rfl rfl
  | .group l, h => (closed_parens (reads_conds l h)).reads.of rfl rfl
/-- The first condition. -/
theorem reads_conds : ∀ (l : BList α), CondsPlain f true l → Reads (condsText f l) (condsToks f l)
  | .nil, _ => Closed.nil.reads
  | .cons k x rest, h => by
    have hx := (reads_cond x h.2.1).trails (trails_conds rest h.2.2)
    cases k with
    | initial => exact hx.of rfl (by simp [condsToks, linkToks])
    | and =>
      exact ((show Closed b!" AND " (kw b!"and") by decide).append_reads hx).of rfl (by simp [condsToks, linkToks])
    | or =>
      exact ((show Closed b!" OR " (kw b!"or") by decide).append_reads hx).of rfl (by simp [condsToks, linkToks])
/-- The other conditions. -/
theorem trails_conds : ∀ (l : BList α), CondsPlain f false l → Trails (condsText f l) (condsToks f l)
  | .nil, _ => Trails.nil
  | .cons k x rest, h => by
    have hx := (reads_cond x h.2.1).trails (trails_conds rest h.2.2)
    cases k with
    | initial => exact absurd (h.1 rfl) (by simp)
    | and =>
      exact (Trails.lit (by decide) (by decide) (show Closed b!" AND " (kw b!"and") by decide) hx).of rfl
        (by simp [condsToks, linkToks])
    | or =>
      exact (Trails.lit (by decide) (by decide) (show Closed b!" OR " (kw b!"or") by decide) hx).of rfl
        (by simp [condsToks, linkToks])
end

/-! ### Clauses -/

theorem reads_join {j : TableJoin α} (h : JoinPlain f j) : Reads (tableJoinText f j) (tableJoinToks f j) := by
  have hon : Trails (if isNil j.cond then [] else b!" ON " ++ condsText f j.cond)
      (if isNil j.cond then [] else kw b!"on" ++ condsToks f j.cond) := by
    split
    · exact Trails.nil
    · exact Trails.lit (by decide) (by decide) (by decide) (reads_conds _ h.2)
  have h2 := (reads_rel h.1).trails hon
  have h3 : Closed (joinText j.type ++ b!" JOIN ") (joinToks j.type ++ kw b!"join") := by
    generalize j.type = t
    cases t with
    | none => decide
    | some t => cases t <;> decide
  exact (h3.append_reads h2).of (by simp [tableJoinText]) (by simp [tableJoinToks])

theorem reads_table : ∀ {t : TableExpr α}, TablePlain f t → Reads (tableText f t) (tableToks f t)
  | .rel _, h => reads_rel h
  | .join _, h => reads_join h
  | .values, _ => (show Whole b!"(VALUES" by decide).reads

theorem reads_tables : ∀ (l : List (TableExpr α)), (∀ t ∈ l, TablePlain f t) →
    Reads (sepBy b!" " (l.map (tableText f))) (l.flatMap (tableToks f))
  | [], _ => Closed.nil.reads
  | [x], h => (reads_table (h x (List.mem_cons_self ..))).of rfl (by simp)
  | x :: y :: l, h => by
    have ih := reads_tables (y :: l) fun k hk => h k (List.mem_cons_of_mem _ hk)
    exact ((reads_table (h x (List.mem_cons_self ..))).trails
      (Trails.lit (by decide) (by decide) (show Closed b!" " [] by decide) ih)).of rfl (by simp)

/-- A clause: ` lead x`. -/
theorem trails_clause {lead x : Bytes} {l a : List Tok} (hl : Closed (b!" " ++ (lead ++ b!" ")) l) (h : Reads x a) :
    Trails (clause lead (some x)) (l ++ a) :=
  (Trails.lit (x := b!" " ++ (lead ++ b!" ")) (by trivial) (by simp) hl h).of (by simp [clause]) rfl

theorem trails_tables {lead : Bytes} {l : List Tok} (hl : Closed (b!" " ++ (lead ++ b!" ")) l)
    {ts : List (TableExpr α)} (h : ∀ t ∈ ts, TablePlain f t) :
    Trails (clause lead (ifAny ts fun l => sepBy b!" " (l.map (tableText f))))
      (if ts.length = 0 then [] else l ++ ts.flatMap (tableToks f)) := by
  unfold ifAny
  split
  · exact Trails.nil
  · exact trails_clause hl (reads_tables ts h)

theorem trails_where {w : Option (BList α)} (h : WherePlain f w) : Trails (whereText f w) (whereToks f w) := by
  cases w with
  | none => exact Trails.nil
  | some l => exact trails_clause (by decide) (reads_conds l (h l rfl))

theorem trails_returning {r : List (VExpr α)} (h : ValsPlain f r) :
    Trails (returningText f r) (returningToks f r) := by
  unfold returningText returningToks ifAny
  split
  · exact Trails.nil
  · exact trails_clause (by decide) (reads_commas r fun v hv => reads_val v (h v hv))

theorem trails_limit {lead : Bytes} {l : List Tok} (hl : Closed (b!" " ++ (lead ++ b!" ")) l) :
    ∀ {v : LimitVal α}, LimitPlain f v → Trails (clause lead (limitText f v)) (clauseToks l (limitToks f v))
  | .none, _ => Trails.nil
  | .int n, _ => trails_clause hl (reads_itoa n)
  | .param _, h => trails_clause hl (Whole.reads h)

theorem reads_order {o : OrderBy} (h : ColPlain o.column) : Reads (orderText o) (orderToks o) := by
  have key : ∀ d n : Bool, Trails ((if d then b!" DESC" else b!" ASC") ++
      (if n then b!" NULLS FIRST" else b!" NULLS LAST"))
      (kw (if d then b!"desc" else b!"asc") ++ (kw b!"nulls" ++ kw (if n then b!"first" else b!"last"))) := by
    intro d n
    have e : kw (if d then b!"desc" else b!"asc") ++ (kw b!"nulls" ++ kw (if n then b!"first" else b!"last")) =
        lex ((if d then b!" DESC" else b!" ASC") ++ (if n then b!" NULLS FIRST" else b!" NULLS LAST")) := by
      cases d <;> cases n <;> decide
    rw [e]
    exact ⟨by cases d <;> cases n <;> decide, Whole.reads (by cases d <;> cases n <;> decide)⟩
  exact ((reads_col h).trails (key o.desc o.nullsFirst)).of rfl (by simp [orderToks])

theorem trails_order {l : List OrderBy} (h : ∀ o ∈ l, ColPlain o.column) :
    Trails (clause b!"ORDER BY" (ifAny l fun l => commas (l.map orderText))) (orderByToks l) := by
  unfold orderByToks ifAny
  split
  · exact Trails.nil
  · exact trails_clause (l := kw b!"order" ++ kw b!"by") (by decide)
      (reads_commas l fun o ho => reads_order (h o ho))

theorem reads_target : ∀ {t : ConflictTarget}, TargetPlain t → Reads (targetText t) (targetToks t)
  | .index e p, h => by
    have hw : Trails (if p.length > 0 then b!" WHERE " ++ p else []) (if p.length > 0 then kw b!"where" ++ lex p else []) := by
      split
      · exact Trails.lit (by decide) (by decide) (by decide) (Whole.reads h.2)
      · exact Trails.nil
    exact ((closed_parens (Whole.reads h.1)).reads.trails hw).of (by simp [targetText]) rfl
  | .constraint n, h =>
    (show Closed b!"ON CONSTRAINT " (kw b!"on" ++ kw b!"constraint") by decide).append_reads (reads_quoted_ident h)

theorem reads_set {n : Bytes} (h : Ident n) : Reads (quoted n ++ (b!" = EXCLUDED." ++ quoted n)) (setToks n) :=
  ((reads_quoted_ident h).trails (Trails.lit (by decide) (by decide)
    (show Closed b!" = EXCLUDED." [.op b!"=", .word b!"excluded", .punct '.'] by decide)
    (reads_quoted_ident h))).of rfl rfl

theorem reads_conflict {c : ConflictClause} (h : ConflictPlain c) : Reads (conflictText c) (conflictToks c) := by
  have hu : Reads (if c.update.length = 0 then b!"DO NOTHING"
      else b!"DO UPDATE SET " ++ commas (c.update.map fun n => quoted n ++ (b!" = EXCLUDED." ++ quoted n)))
      (if c.update.length = 0 then kw b!"do" ++ kw b!"nothing"
       else kw b!"do" ++ kw b!"update" ++ kw b!"set" ++ commaToks (c.update.map setToks)) := by
    split
    · exact (show Whole b!"DO NOTHING" by decide).reads
    · exact (show Closed b!"DO UPDATE SET " (kw b!"do" ++ kw b!"update" ++ kw b!"set") by decide).append_reads
        (reads_commas _ fun n hn => reads_set (h.2 n hn))
  unfold conflictText conflictToks
  cases ht : c.target with
  | none => exact hu
  | some t =>
    have h1 := (reads_target (h.1 t ht)).append_closed (y := b!" ") (b := []) (by decide) (by decide) (by decide)
    exact (h1.append_reads hu).of rfl (by simp)

theorem trails_conflict {c : Option ConflictClause} (h : ∀ x, c = some x → ConflictPlain x) :
    Trails (clause b!"ON CONFLICT" (c.map conflictText)) (onConflictToks c) := by
  cases c with
  | none => exact Trails.nil
  | some c => exact trails_clause (l := kw b!"on" ++ kw b!"conflict") (by decide) (reads_conflict (h c rfl))

theorem trails_joins : ∀ (l : List (TableJoin α)), (∀ j ∈ l, JoinPlain f j) →
    Trails (l.flatMap fun j => b!" " ++ tableJoinText f j) (l.flatMap (tableJoinToks f))
  | [], _ => Trails.nil
  | j :: l, h => by
    have ih := trails_joins l fun k hk => h k (List.mem_cons_of_mem _ hk)
    have hj := Trails.lit (by decide) (by decide) (show Closed b!" " [] by decide)
      (reads_join (h j (List.mem_cons_self ..)))
    exact (hj.append ih).of (by simp) (by simp)

theorem trails_select {js : List (TableJoin α)} {w : Option (BList α)} {o : List OrderBy} {l k : LimitVal α}
    (h : SelectPlain f js w o l k) : Trails (selectTail f js w o l k) (selectTailToks f js w o l k) := by
  obtain ⟨h1, h2, h3, h4, h5⟩ := h
  refine ((trails_joins js h1).append ((trails_where h2).append ((trails_order h3).append
    ((trails_limit (lead := b!"LIMIT") (l := kw b!"limit") (by decide) h4).append
      (trails_limit (lead := b!"OFFSET") (l := kw b!"offset") (by decide) h5))))).of (by simp [selectTail]) (by simp [selectTailToks])

theorem closed_names {l : List Bytes} (h : ∀ n ∈ l, Ident n) : Closed (namesText l) (namesToks l) :=
  closed_parens (reads_names l h)

/-! ### Statements -/

theorem reads_stmt : ∀ (s : Stmt α), StmtPlain f s → Reads (stmtText f s) (stmtToks f s)
  | .insert t cs o vs c r, h => by
    obtain ⟨ht, hc, hv, hk, hr⟩ := h
    have h1 := (trails_conflict hk).append (trails_returning hr)
    have h2 : Trails (match (generalizing := false) vs with | none => [] | some vs => b!"(" ++ (commas (vs.map (valText f)) ++ b!")"))
        (match (generalizing := false) vs with | none => [] | some vs => parens (commaToks (vs.map (valToks f)))) := by
      cases vs with
      | none => exact Trails.nil
      | some vs =>
        exact ⟨by trivial, (closed_parens (reads_commas vs fun v hx => reads_val v (hv vs rfl v hx))).reads⟩
    have h3 : Closed ((match (generalizing := false) o with | none => [] | some o => b!" OVERRIDING " ++ (overridingText o ++ b!" VALUE")) ++
        b!" VALUES ") ((match (generalizing := false) o with | none => [] | some o => kw b!"overriding" ++ overridingToks o ++ kw b!"value") ++
          kw b!"values") := by
      cases o with
      | none => decide
      | some o => cases o <;> decide
    have h4 := (closed_names hc).append_reads (h3.append_reads (h2.append h1).2)
    have h5 := (reads_rel ht).trails (Trails.lit (by decide) (by decide) (show Closed b!" " [] by decide) h4)
    exact ((show Closed b!"INSERT INTO " (kw b!"insert" ++ kw b!"into") by decide).append_reads h5).of
      (by cases o <;> cases vs <;> simp [stmtText]) (by cases o <;> cases vs <;> simp [stmtToks])
  | .update t cs vs fr w r, h => by
    obtain ⟨ht, hc, hv, hf, hw, hr⟩ := h
    have h1 := (trails_tables (lead := b!"FROM") (l := kw b!"from") (by decide) hf).append
      ((trails_where hw).append (trails_returning hr))
    have h2 := (closed_parens (reads_commas vs fun v hx => reads_val v (hv v hx))).reads.trails h1
    have h3 := Trails.lit (by decide) (by decide) (show Closed b!" = " [.op b!"="] by decide) h2
    have h4 := (closed_names hc).reads.trails h3
    have h5 := (reads_rel ht).trails (Trails.lit (by decide) (by decide) (show Closed b!" SET " (kw b!"set") by decide) h4)
    exact ((show Closed b!"UPDATE " (kw b!"update") by decide).append_reads h5).of
      (by simp [stmtText]) (by simp [stmtToks, tablesToks])
  | .select cs t js w o l k, h => by
    obtain ⟨hc, ht, hs⟩ := h
    have h1 := (reads_rel ht).trails (trails_select hs)
    have h2 := (reads_commas cs fun v hx => reads_val v (hc v hx)).trails
      (Trails.lit (by decide) (by decide) (show Closed b!" FROM " (kw b!"from") by decide) h1)
    exact ((show Closed b!"SELECT " (kw b!"select") by decide).append_reads h2).of
      (by simp [stmtText]) (by simp [stmtToks])
  | .count t js w o k, h => by
    have h1 := (reads_rel h.1).trails (trails_select h.2)
    exact ((show Closed b!"SELECT COUNT(*) FROM "
      (kw b!"select" ++ kw b!"count" ++ parens [.op b!"*"] ++ kw b!"from") by decide).append_reads h1).of
      (by simp [stmtText]) (by simp [stmtToks])
  | .exists_ n op t js w o l k, h => by
    have h0 : Trails (if op then [] else b!")") (if op then [] else [.punct ')']) := by
      cases op
      · exact ⟨by trivial, (show Closed b!")" [.punct ')'] by decide).reads⟩
      · exact Trails.nil
    have h1 := (reads_rel h.1).trails ((trails_select h.2).append h0)
    have h2 : Closed (b!"SELECT " ++ (notText n ++ b!"EXISTS(SELECT 1 FROM "))
        (kw b!"select" ++ notToks n ++ kw b!"exists" ++ .punct '(' :: kw b!"select" ++ [.num b!"1"] ++ kw b!"from") := by
      cases n <;> decide
    exact (h2.append_reads h1).of (by simp [stmtText]) (by simp [stmtToks])
  | .delete t us w r, h => by
    obtain ⟨ht, hu, hw, hr⟩ := h
    have h1 := (reads_rel ht).trails ((trails_tables (lead := b!"USING") (l := kw b!"using") (by decide) hu).append
      ((trails_where hw).append (trails_returning hr)))
    exact ((show Closed b!"DELETE FROM " (kw b!"delete" ++ kw b!"from") by decide).append_reads h1).of
      (by simp [stmtText]) (by simp [stmtToks, tablesToks])

theorem trails_tail : ∀ (t : Tail α), TailPlain f t → Trails ((tailText f t).getD []) (tailToks f t)
  | .none, _ => Trails.nil
  | .insert c r, h => (trails_conflict h.1).append (trails_returning h.2)
  | .update a w r, h => by
    obtain ⟨ha, hw, hr⟩ := h
    have h1 : Trails (match (generalizing := false) a with | none => [] | some cs => b!" ) AS x " ++ namesText cs)
        (match (generalizing := false) a with | none => [] | some cs => .punct ')' :: kw b!"as" ++ kw b!"x" ++ namesToks cs) := by
      cases a with
      | none => exact Trails.nil
      | some cs =>
        exact (Trails.lit (by decide) (by decide)
          (show Closed b!" ) AS x " (.punct ')' :: kw b!"as" ++ kw b!"x") by decide)
          (closed_names (ha cs rfl)).reads).of rfl rfl
    exact (h1.append ((trails_where hw).append (trails_returning hr))).of (by cases a <;> simp [tailText]) (by cases a <;> simp [tailToks])

/-- The text of a statement whose names are identifiers, and whose literals, types and values make sense by
themselves, consists of the tokens that are meant: no text runs into its neighbour or ends a quote. -/
theorem C87_stmt (s : Stmt α) (h : StmtPlain f s) : lex (stmtText f s) = stmtToks f s ∧ .bad ∉ stmtToks f s :=
  ⟨(reads_stmt s h).lex, clean_iff.1 (reads_stmt s h).1⟩

/-- So does the text with the tail that is appended to it. -/
theorem C87_tail (s : Stmt α) (t : Tail α) (h : StmtPlain f s) (ht : TailPlain f t) :
    lex (stmtText f s ++ (tailText f t).getD []) = stmtToks f s ++ tailToks f t ∧ .bad ∉ stmtToks f s ++ tailToks f t :=
  ⟨((reads_stmt s h).trails (trails_tail t ht)).lex, clean_iff.1 ((reads_stmt s h).trails (trails_tail t ht)).1⟩

end

end Verif.Generator.Lex
