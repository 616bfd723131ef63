import Verif.Generator.PropsLex3
import Verif.Generator.Witness

/- Property C87: the whole text that is sent, and what goes wrong. -/
namespace Verif.Generator.Lex
open Verif.Analysis Verif.Postgres Print

/-! ### Rows -/

/-- The tokens of the cells of a row; `p` placeholders come before them. -/
def cellToks {α : Type} (p : Nat) : List (VExpr α) → List (List Tok)
  | [] => []
  | .default :: vs => kw b!"default" :: cellToks p vs
  | v :: vs => valToks (fun _ => ordinal (p + 1)) v :: cellToks (p + 1) vs

/-- The rows, separated by commas; every row has `k` placeholders. -/
def rowsToks {α : Type} (vs : List (VExpr α)) (k n : Nat) : List Tok :=
  commaToks ((List.range n).map fun i => parens (commaToks (cellToks (i * k) vs)))

/-- The values a row is made of. -/
def CellShape {α : Type} : VExpr α → Prop
  | .default | .param _ | .cast (.param _) _ | .cast (.nullif (.param _) (.lit _)) _ => True
  | _ => False

theorem writeVal_shape (q : Query) (g : G) (w : FieldWrite) : CellShape (writeVal q g w).1 := by
  unfold writeVal
  split
  · trivial
  · simp only
    split
    · unfold addNullif
      split
      · trivial
      · split <;> trivial
    · split <;> trivial

theorem mapSt_shape {β : Type} {g : G → β → VExpr Slot × G} (hg : ∀ s x, CellShape (g s x).1) :
    ∀ (xs : List β) (s : G), ∀ v ∈ (mapSt g s xs).1, CellShape v
  | [], s => by intro v hv; simp [mapSt] at hv
  | x :: xs, s => by
    intro v hv
    simp only [mapSt, List.mem_cons] at hv
    rcases hv with rfl | hv
    · exact hg s x
    · exact mapSt_shape hg xs _ v hv

theorem rowVals_shape {q : Query} {t : TargetInfo} {c : Code} (h : generate q t = some c) :
    ∀ v ∈ c.rowVals, CellShape v := by
  obtain ⟨_, _, _, _, _, _, _, _, _, hr⟩ := generate_split h
  rw [hr]
  intro v hv
  unfold targetValues at hv
  simp only at hv
  split at hv
  · rcases List.mem_append.1 hv with hv | hv
    · exact mapSt_shape (writeVal_shape q) _ _ v hv
    · exact mapSt_shape (g := pkeyVal) (fun _ _ => trivial) _ _ v hv
  · rw [List.append_nil] at hv
    exact mapSt_shape (writeVal_shape q) _ _ v hv

/-- The text of a cell. -/
theorem reads_cell {f : Slot → Bytes} {v : VExpr Slot} (hs : CellShape v) (hd : isDefault v = false)
    (h : ValPlain f v) (k : Nat) :
    Reads ((cellFrame v).1 ++ ordinal k ++ (cellFrame v).2) (valToks (fun _ => ordinal k) v) := by
  have hp : Reads (ordinal k) (lex (ordinal k)) := (reads_ordinal k).whole.reads
  have hg : ∀ x : VExpr Slot, ValPlain f x → CellShape x → ValPlain (fun _ : Slot => ordinal k) x := by
    intro x hx hxs
    unfold CellShape at hxs
    split at hxs
    · trivial
    · exact (reads_ordinal k).whole
    · exact ⟨(reads_ordinal k).whole, hx.2⟩
    · exact ⟨⟨(reads_ordinal k).whole, hx.1.2⟩, hx.2⟩
    · cases hxs
  have hv := reads_val v (hg v h hs)
  refine hv.of ?_ rfl
  unfold CellShape at hs
  split at hs
  · cases hd
  · simp [cellFrame, valText]
  · simp [cellFrame, valText]
  · simp [cellFrame, valText, litText]
  · cases hs

theorem ordinalAtInt_some {n : Nat} {o : Bytes} (h : ordinalAtInt n = some o) : o = ordinal (n + 1) := by
  unfold ordinalAtInt ordinalAt at h
  split at h
  · split at h
    · cases h; simp
    · cases h
  · cases h

theorem cellToks_value {α : Type} {p : Nat} {v : VExpr α} {vs : List (VExpr α)} (h : isDefault v = false) :
    cellToks p (v :: vs) = valToks (fun _ => ordinal (p + 1)) v :: cellToks (p + 1) vs := by
  cases v <;> first | rfl | cases h

theorem cellToks_default {α : Type} {p : Nat} {v : VExpr α} {vs : List (VExpr α)} (h : isDefault v = true) :
    cellToks p (v :: vs) = kw b!"default" :: cellToks p vs := by
  cases v <;> first | rfl | cases h

/-- The cells from the second on. -/
theorem rowCells_rest {f : Slot → Bytes} (pos : Nat) : ∀ (vs : List (VExpr Slot)) (i dc : Nat) (r : Bytes), 0 < i →
    dc ≤ i → (∀ v ∈ vs, CellShape v) → ValsPlain f vs → rowCells pos i dc vs = some r →
    ∃ y, r = y ++ b!"," ∧ SepHead y ∧ y ≠ [] ∧
      Closed y ((cellToks (pos + (i - dc)) vs).flatMap (fun x => .punct ',' :: x) ++ [.punct ')'])
  | [], i, dc, r, _, _, _, _, h => by
    simp only [rowCells, Option.some.injEq] at h
    subst h
    exact ⟨b!")", rfl, by trivial, by simp, show Closed b!")" [.punct ')'] by decide⟩
  | v :: vs, i, dc, r, hi, hdc, hs, hv, h => by
    have hsep : cellSep i = b!", " := by unfold cellSep; rw [if_neg (by omega)]
    have hs' : ∀ v ∈ vs, CellShape v := fun v hm => hs v (List.mem_cons_of_mem _ hm)
    have hv' : ValsPlain f vs := fun v hm => hv v (List.mem_cons_of_mem _ hm)
    rw [rowCells] at h
    split at h
    · next hd =>
      rw [Option.map_eq_some_iff] at h
      obtain ⟨rest, hr, rfl⟩ := h
      obtain ⟨y, rfl, y1, y2, y3⟩ := rowCells_rest pos vs _ _ _ (by omega) (by omega) hs' hv' hr
      rw [show i + 1 - (dc + 1) = i - dc by omega] at y3
      refine ⟨b!", DEFAULT" ++ y, by simp [hsep], by trivial, by simp, ?_⟩
      have := (show Reads b!", DEFAULT" ([.punct ','] ++ kw b!"default") from
        (show Closed b!", " [.punct ','] by decide).append_reads (show Reads b!"DEFAULT" (kw b!"default") from
          (show Whole b!"DEFAULT" by decide).reads)).append_closed y1 y2 y3
      rw [cellToks_default hd]
      simpa using this
    · next hd =>
      simp only [Bool.not_eq_true] at hd
      rw [Option.bind_eq_some_iff] at h
      obtain ⟨o, ho, h⟩ := h
      rw [Option.map_eq_some_iff] at h
      obtain ⟨rest, hr, rfl⟩ := h
      rw [show ((pos : Int) + ((i : Int) - dc)) = ((pos + (i - dc) : Nat) : Int) by omega] at ho
      have ho := ordinalAtInt_some ho
      subst ho
      obtain ⟨y, rfl, y1, y2, y3⟩ := rowCells_rest pos vs _ _ _ (by omega) (by omega) hs' hv' hr
      rw [show pos + (i + 1 - dc) = pos + (i - dc) + 1 by omega] at y3
      have hc := reads_cell (hs v (List.mem_cons_self ..)) hd (hv v (List.mem_cons_self ..)) (pos + (i - dc) + 1)
      refine ⟨b!", " ++ (((cellFrame v).1 ++ ordinal (pos + (i - dc) + 1) ++ (cellFrame v).2) ++ y),
        by simp [hsep], by trivial, by simp, ?_⟩
      have := (show Closed b!", " [.punct ','] by decide).append (hc.append_closed y1 y2 y3)
      rw [cellToks_value hd]
      simpa using this

theorem commaToks_cons (x : List Tok) : ∀ (xs : List (List Tok)),
    commaToks (x :: xs) = x ++ xs.flatMap fun y => .punct ',' :: y
  | [] => by simp [commaToks]
  | y :: ys => by rw [commaToks, commaToks_cons y ys]; simp; simp

/-- A row with at least one cell. -/
theorem rowCells_reads {f : Slot → Bytes} (pos : Nat) {vs : List (VExpr Slot)} {r : Bytes} (hne : vs ≠ [])
    (hs : ∀ v ∈ vs, CellShape v) (hv : ValsPlain f vs) (h : rowCells pos 0 0 vs = some r) :
    ∃ y, r = y ++ b!"," ∧ SepHead y ∧ y ≠ [] ∧ Closed y (parens (commaToks (cellToks pos vs))) := by
  cases vs with
  | nil => exact absurd rfl hne
  | cons v vs =>
    have hs' : ∀ v ∈ vs, CellShape v := fun v hm => hs v (List.mem_cons_of_mem _ hm)
    have hv' : ValsPlain f vs := fun v hm => hv v (List.mem_cons_of_mem _ hm)
    have hsep : cellSep 0 = b!"(" := rfl
    rw [rowCells] at h
    split at h
    · next hd =>
      rw [Option.map_eq_some_iff] at h
      obtain ⟨rest, hr, rfl⟩ := h
      obtain ⟨y, rfl, y1, y2, y3⟩ := rowCells_rest pos vs _ _ _ (by omega) (by omega) hs' hv' hr
      simp only [Nat.sub_self, Nat.add_zero] at y3
      refine ⟨b!"(DEFAULT" ++ y, by simp [hsep], by trivial, by simp, ?_⟩
      have := (show Reads b!"(DEFAULT" ([.punct '('] ++ kw b!"default") from
        (show Closed b!"(" [.punct '('] by decide).append_reads (show Reads b!"DEFAULT" (kw b!"default") from
          (show Whole b!"DEFAULT" by decide).reads)).append_closed y1 y2 y3
      rw [cellToks_default hd, commaToks_cons]
      simpa [parens] using this
    · next hd =>
      simp only [Bool.not_eq_true] at hd
      rw [Option.bind_eq_some_iff] at h
      obtain ⟨o, ho, h⟩ := h
      rw [Option.map_eq_some_iff] at h
      obtain ⟨rest, hr, rfl⟩ := h
      rw [show ((pos : Int) + (((0 : Nat) : Int) - ((0 : Nat) : Int))) = ((pos : Nat) : Int) by omega] at ho
      have ho := ordinalAtInt_some ho
      subst ho
      obtain ⟨y, rfl, y1, y2, y3⟩ := rowCells_rest pos vs _ _ _ (by omega) (by omega) hs' hv' hr
      simp only [Nat.sub_zero, Nat.zero_add] at y3
      have hc := reads_cell (hs v (List.mem_cons_self ..)) hd (hv v (List.mem_cons_self ..)) (pos + 1)
      refine ⟨b!"(" ++ (((cellFrame v).1 ++ ordinal (pos + 1) ++ (cellFrame v).2) ++ y),
        by simp [hsep], by trivial, by simp, ?_⟩
      have := (show Closed b!"(" [.punct '('] by decide).append (hc.append_closed y1 y2 y3)
      rw [cellToks_value hd, commaToks_cons]
      simpa [parens] using this

/-- The rows, without the last comma. -/
theorem recordRows_reads {f : Slot → Bytes} {c : Code} (hne : c.rowVals ≠ []) (hs : ∀ v ∈ c.rowVals, CellShape v)
    (hv : ValsPlain f c.rowVals) : ∀ (n i : Nat) (r : Bytes), recordRows c i (n + 1) = some r →
    ∃ y, r = y ++ b!"," ∧ SepHead y ∧ y ≠ [] ∧
      Closed y (commaToks ((List.range' i (n + 1)).map fun j =>
        parens (commaToks (cellToks (j * c.args.length) c.rowVals))))
  | 0, i, r, h => by
    simp only [recordRows, Option.bind_eq_some_iff, Option.map_some, Option.some.injEq] at h
    obtain ⟨r', hr, rfl⟩ := h
    obtain ⟨y, rfl, y1, y2, y3⟩ := rowCells_reads _ hne hs hv hr
    exact ⟨y, by simp, y1, y2, y3⟩
  | n + 1, i, r, h => by
    rw [recordRows, Option.bind_eq_some_iff] at h
    obtain ⟨r', hr, h⟩ := h
    rw [Option.map_eq_some_iff] at h
    obtain ⟨rest, hrest, rfl⟩ := h
    obtain ⟨y, rfl, y1, y2, y3⟩ := rowCells_reads _ hne hs hv hr
    obtain ⟨z, rfl, z1, z2, z3⟩ := recordRows_reads hne hs hv n (i + 1) _ hrest
    refine ⟨y ++ (b!"," ++ z), by simp, y1.append y2, by simp [y2], ?_⟩
    have := y3.append ((show Closed b!"," [.punct ','] by decide).append z3)
    rw [show List.range' i (n + 1 + 1) = i :: List.range' (i + 1) (n + 1) from List.range'_succ ..]
    rw [List.map_cons]
    rw [show List.range' (i + 1) (n + 1) = (i + 1) :: List.range' (i + 2) n from List.range'_succ ..] at this ⊢
    rw [List.map_cons] at this ⊢
    rw [commaToks]
    · simpa using this
    · simp

/-! ### C87 -/

/-- **C87** The statement that is generated for an accepted query consists, as it is sent, of the tokens that are
meant: if the texts copied from the catalog and from the tags make sense by themselves, no text of the
statement runs into its neighbour, ends a quote or starts a comment. -/
theorem C87_accepted {env : Env} {cache : Cache} {n : Bytes} {fs : List Field} {s : Analysis.St} {cat : Catalog}
    {t : TargetInfo} {c : Code} (w : World) (hc : CacheNamed cache) (ha : analyzeQuery env cache n fs = .ok s)
    (hk : checkQuery cat s.q = .ok t) (hg : generate s.q t = some c) (hcat : CatPlain cat)
    (ht : ∀ x ∈ queryTexts s.q, Whole x) :
    let f := fun a => (Generator.slotText w c a).getD []
    lex (stmtText f c.sql.stmt ++ (tailText f c.sql.tail).getD []) =
        stmtToks f c.sql.stmt ++ tailToks f c.sql.tail ∧
      .bad ∉ stmtToks f c.sql.stmt ++ tailToks f c.sql.tail := by
  intro f
  have := generate_plain hc ha rfl hk hg hcat ht (f := f) (slotText_whole w c)
  exact C87_tail _ _ this.1 this.2.1

/-- So does the statement with one row for each record. -/
theorem C87_records {env : Env} {cache : Cache} {n : Bytes} {fs : List Field} {s : Analysis.St} {cat : Catalog}
    {t : TargetInfo} {c : Code} (w : World) (hc : CacheNamed cache) (ha : analyzeQuery env cache n fs = .ok s)
    (hk : checkQuery cat s.q = .ok t) (hg : generate s.q t = some c) (hcat : CatPlain cat)
    (ht : ∀ x ∈ queryTexts s.q, Whole x) (hne : c.rowVals ≠ []) (hr : w.records ≠ []) {x : Bytes} :
    let f := fun a => (Generator.slotText w c a).getD []
    recordText w c (stmtText f c.sql.stmt) (tailText f c.sql.tail) = some x →
    lex x = stmtToks f c.sql.stmt ++ rowsToks c.rowVals c.args.length w.records.length ++ tailToks f c.sql.tail ∧
      .bad ∉ stmtToks f c.sql.stmt ++ rowsToks c.rowVals c.args.length w.records.length ++ tailToks f c.sql.tail := by
  intro f hx
  have hp := generate_plain hc ha rfl hk hg hcat ht (f := f) (slotText_whole w c)
  obtain ⟨m, hm⟩ : ∃ m, w.records.length = m + 1 := ⟨w.records.length - 1, by
    have := List.length_pos_iff.2 hr; omega⟩
  rw [recordText, Option.bind_eq_some_iff] at hx
  obtain ⟨rows, hrows, hx⟩ := hx
  rw [hm] at hrows
  obtain ⟨y, rfl, y1, y2, y3⟩ := recordRows_reads hne (rowVals_shape hg) hp.2.2 m 0 rows hrows
  have hmain := (reads_stmt _ hp.1).append_closed y1 y2 y3
  have htail := trails_tail _ hp.2.1
  have hrt : rowsToks c.rowVals c.args.length w.records.length = commaToks ((List.range' 0 (m + 1)).map fun j =>
      parens (commaToks (cellToks (j * c.args.length) c.rowVals))) := by
    rw [rowsToks, hm, List.range_eq_range']
  rw [hrt]
  have hlen : (stmtText f c.sql.stmt ++ (y ++ b!",")).length - 1 = (stmtText f c.sql.stmt ++ y).length := by
    simp only [List.length_append, List.length_cons, List.length_nil]; omega
  have htake : (stmtText f c.sql.stmt ++ (y ++ b!",")).take ((stmtText f c.sql.stmt ++ (y ++ b!",")).length - 1) =
      stmtText f c.sql.stmt ++ y := by
    rw [hlen, ← List.append_assoc, List.take_left]
  simp only at hx
  rw [if_neg (by simp), htake] at hx
  have key : Reads x (stmtToks f c.sql.stmt ++ commaToks ((List.range' 0 (m + 1)).map fun j =>
      parens (commaToks (cellToks (j * c.args.length) c.rowVals))) ++ tailToks f c.sql.tail) := by
    cases htt : tailText f c.sql.tail with
    | none =>
      rw [htt] at hx htail
      simp only [Option.some.injEq] at hx
      have h0 : tailToks f c.sql.tail = [] := htail.2.lex.symm
      rw [h0, List.append_nil, ← hx]
      exact hmain.reads
    | some tl =>
      rw [htt] at hx htail
      simp only [Option.some.injEq] at hx
      rw [← hx]
      have := hmain.append ((show Closed b!" " [] by decide))
      exact (this.append_reads htail.2).of (by simp) (by simp)
  exact ⟨key.lex, clean_iff.1 key.1⟩

/-- And the statement with the text of a filter, if that makes sense by itself and begins with a blank. -/
theorem C87_filter {env : Env} {cache : Cache} {n : Bytes} {fs : List Field} {s : Analysis.St} {cat : Catalog}
    {t : TargetInfo} {c : Code} (w : World) (hc : CacheNamed cache) (ha : analyzeQuery env cache n fs = .ok s)
    (hk : checkQuery cat s.q = .ok t) (hg : generate s.q t = some c) (hcat : CatPlain cat)
    (ht : ∀ x ∈ queryTexts s.q, Whole x) (hw : Whole (w.filter c.args.length).1)
    (hb : SepHead (w.filter c.args.length).1) :
    let f := fun a => (Generator.slotText w c a).getD []
    let all := stmtToks f c.sql.stmt ++ lex (w.filter c.args.length).1 ++
      (if c.sql.closeFilter then [.punct ')'] else []) ++ tailToks f c.sql.tail
    lex (Generator.filterText w c (stmtText f c.sql.stmt) (tailText f c.sql.tail)) = all ∧ .bad ∉ all := by
  intro f all
  have hp := generate_plain hc ha rfl hk hg hcat ht (f := f) (slotText_whole w c)
  have h1 := (reads_stmt _ hp.1).trails ⟨hb, hw.reads⟩
  have h2 : Trails (if c.sql.closeFilter then b!")" else []) (if c.sql.closeFilter then [.punct ')'] else []) := by
    split
    · exact ⟨by trivial, (show Closed b!")" [.punct ')'] by decide).reads⟩
    · exact Trails.nil
  have htail := trails_tail _ hp.2.1
  have h3 := h1.trails h2
  have key : Reads (Generator.filterText w c (stmtText f c.sql.stmt) (tailText f c.sql.tail)) all := by
    unfold Generator.filterText
    cases htt : tailText f c.sql.tail with
    | none =>
      rw [htt] at htail
      have h0 : tailToks f c.sql.tail = [] := htail.2.lex.symm
      exact h3.of (by simp) (by simp [all, h0])
    | some tl =>
      rw [htt] at htail
      exact (h3.trails (Trails.lit (by decide) (by decide) (show Closed b!" " [] by decide) htail.2)).of
        (by simp) (by simp [all])
  exact ⟨key.lex, clean_iff.1 key.1⟩

end Verif.Generator.Lex
