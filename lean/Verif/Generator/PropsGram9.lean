import Verif.Generator.PropsGram8
import Verif.Generator.PropsLex5
import Verif.Generator.PropsParams

/- Property C89: the statement that is sent is parsed as the tree that is meant. -/
namespace Verif.Generator.Gram
open Verif.Analysis Verif.Postgres Verif.Generator.Lex Print

theorem commaToks_snoc (x : List Tok) : ∀ l : List (List Tok), l ≠ [] → commaToks (l ++ [x]) = commaToks l ++ .punct ',' :: x
  | [], h => absurd rfl h
  | [y], _ => by simp [commaToks]
  | y :: z :: l, _ => by
    have := commaToks_snoc x (z :: l) (by simp)
    simp only [List.cons_append, commaToks] at this ⊢
    rw [this]
    simp

theorem loop_list (pos : Int) : ∀ (n : Nat) (i : Int) (out x : Bytes) (l : List Tok), l ≠ [] →
    (∀ y ∈ l, isConst y = true) → Lex.Reads out (commaToks (l.map ([·]))) → inValueLoop pos n i out = some x → ListText x
  | 0, i, out, x, l, h1, h2, h3, e => by
    simp only [inValueLoop, Option.some.injEq] at e
    exact ⟨l, h1, h2, e ▸ h3.lex⟩
  | n + 1, i, out, x, l, h1, h2, h3, e => by
    simp only [inValueLoop, Option.bind_eq_bind, Option.bind_eq_some_iff] at e
    obtain ⟨o, ho, e⟩ := e
    have hr : ∃ k, o = ordinal k := by
      unfold ordinalAtInt ordinalAt at ho
      split at ho
      · split at ho
        · cases ho; exact ⟨_, rfl⟩
        · cases ho
      · cases ho
    obtain ⟨k, rfl⟩ := hr
    refine loop_list pos n _ _ x (l ++ [.param (itoa k)]) (by simp) ?_ ?_ e
    · intro y hy
      rcases List.mem_append.1 hy with hy | hy
      · exact h2 y hy
      · rw [List.mem_singleton] at hy; subst hy; rfl
    · rw [List.append_assoc, List.map_append, List.map_cons, List.map_nil, commaToks_snoc _ _ (by simpa using h1)]
      exact h3.append (y := b!"," ++ ordinal k) (by trivial)
        ((show Closed b!"," [.punct ','] by decide).append_reads (reads_ordinal k))

theorem one_list : ListText b!"$1" := ⟨[.param b!"1"], by simp, by simp [isConst], by decide⟩

/-- The text of a value; it does not matter what stands for one that has none. -/
def slotOr (w : World) (c : Code) (a : Slot) : Bytes :=
  match Generator.slotText w c a with
  | some x => if x.length = 0 then b!"$1" else x
  | none => b!"$1"

theorem slotOr_num (w : World) (c : Code) (n : Int) : AtomText (slotOr w c (.num n)) := by
  unfold slotOr
  simp only [Generator.slotText]
  split
  · split
    · decide
    · next x hx _ =>
      split at hx
      · cases hx; exact ordinal_atom _
      · cases hx
  · decide

theorem slotOr_slice (w : World) (c : Code) (k : Nat) : ListText (slotOr w c (.slice k)) := by
  unfold slotOr
  simp only [Generator.slotText]
  split
  · split
    · exact one_list
    · next x hx hne =>
      rw [Option.bind_eq_some_iff] at hx
      obtain ⟨l, _, hx⟩ := hx
      rw [Option.bind_eq_some_iff] at hx
      obtain ⟨p, _, hx⟩ := hx
      unfold inValueList at hx
      split at hx
      · rw [Option.bind_eq_bind, Option.bind_eq_some_iff] at hx
        obtain ⟨o, ho, hx⟩ := hx
        have hr : ∃ k, o = ordinal k := by
          unfold ordinalAtInt ordinalAt at ho
          split at ho
          · split at ho
            · cases ho; exact ⟨_, rfl⟩
            · cases ho
          · cases ho
        obtain ⟨k, rfl⟩ := hr
        exact loop_list p _ _ _ x [.param (itoa k)] (by simp) (by simp [isConst]) (reads_ordinal k) hx
      · next hl =>
        have : ((l : Int) - 1).toNat = 0 := by omega
        simp only [Option.bind_eq_bind, Option.bind_some, this, inValueLoop, Option.some.injEq] at hx
        subst hx
        simp at hne
  · exact one_list

/-- Every value in the statement has a text: the program does not fail on the way, and no IN list is empty. -/
def Filled (w : World) (c : Code) : Prop := ∀ a ∈ c.slots, ∃ x, Generator.slotText w c a = some x ∧ x ≠ []

theorem Filled.slotOr {w : World} {c : Code} (h : Filled w c) {a : Slot} (ha : a ∈ c.slots) :
    slotOr w c a = (Generator.slotText w c a).getD [] := by
  obtain ⟨x, hx, hne⟩ := h a ha
  rw [Gram.slotOr, hx]
  simp only [Option.getD_some]
  rw [if_neg (by simpa using hne)]

/-- **C89** The statement that is sent for an accepted query, without a filter and for one record or none, is parsed,
by the rules of PostgreSQL, as the tree that is meant. Required is that the names, types and literals in it can stand
where they are put. -/
theorem C89_accepted {env : Env} {cache : Cache} {n : Bytes} {fs : List Field} {s : Analysis.St} {cat : Catalog}
    {t : TargetInfo} {c : Code} (w : World) (hc : CacheNamed cache) (ha : analyzeQuery env cache n fs = .ok s)
    (hk : checkQuery cat s.q = .ok t) (hg : generate s.q t = some c) (hcat : CatPlain cat)
    (ht : ∀ x ∈ queryTexts s.q, Whole x) (hi : InfoFits s.q t) (hf : s.q.filter = none)
    (hs : isInsertOrUpdateSlice s.q = false) (hw : Filled w c) :
    parse (lex (sentText w c)) = some (stmtTree (fun a => (Generator.slotText w c a).getD []) c.sql.stmt) := by
  have h1 := generate_gram (slotOr_num w c) (slotOr_slice w c) hi hf hs hg
  have h2 := C87_accepted w hc ha hk hg hcat ht
  simp only [h1.2.1, tailToks, List.append_nil] at h2
  have h3 : lex (sentText w c) = stmtToks (fun a => (Generator.slotText w c a).getD []) c.sql.stmt := by
    simp only [sentText, h1.2.1]
    exact h2.1
  rw [h3]
  refine C89_stmt _ (stmtGram_congr (fun a ha => hw.slotOr ?_) h1.1)
  exact List.mem_append_left _ ha

/-- **C89** So is the statement with one row for each of the records. -/
theorem C89_records {env : Env} {cache : Cache} {n : Bytes} {fs : List Field} {s : Analysis.St} {cat : Catalog}
    {t : TargetInfo} {c : Code} (w : World) (hc : CacheNamed cache) (ha : analyzeQuery env cache n fs = .ok s)
    (hk : checkQuery cat s.q = .ok t) (hg : generate s.q t = some c) (hcat : CatPlain cat)
    (ht : ∀ x ∈ queryTexts s.q, Whole x) (hi : InfoFits s.q t) (hs : isInsertOrUpdateSlice s.q = true)
    (hw : Filled w c) (hr : w.records ≠ []) {x : Bytes} :
    let f := fun a => (Generator.slotText w c a).getD []
    recordText w c (stmtText f c.sql.stmt) (tailText f c.sql.tail) = some x →
    ∃ y, rowedTree f c.rowVals c.args.length w.records.length c.sql.stmt c.sql.tail = some y ∧
      parse (lex x) = some y := by
  intro f hx
  have h1 := generate_rowed (slotOr_num w c) (slotOr_slice w c) hi hs hg
  have h2 := generate_cells hi hs hg
  have h3 := C87_records w hc ha hk hg hcat ht h2.1 hr hx
  rw [h3.1]
  exact C89_rows (rowedGram_congr (fun a ha => hw.slotOr ha) h1) h2 (by simpa using hr)

end Verif.Generator.Gram
