import Verif.Generator.FilterTrees
import Verif.Generator.PropsGram6
import Verif.Generator.PropsLex6
import Verif.Filter.Lemmas4

/- Property C90: how the conditions of a filter are read. -/
namespace Verif.Generator.Gram
open Verif.Analysis Verif.Postgres Verif.Generator.Lex Print
variable {α : Type}

/-! ### The tokens, in terms of what was asked for -/

def predToks (p : Nat) (x : Filter.Pred α) : List Tok :=
  match x.form with
  | .cmp op _ => lex x.column ++ lex op ++ [.param (itoa (p + 1))]
  | .is w => lex x.column ++ lex w
  | .search _ => lex x.column ++ .op b!"@@" :: .word b!"to_tsquery" ::
      parens (commaToks [[.str b!"simple"], [.param (itoa (p + 1))]])
  | .isIn xs => lex x.column ++ kw b!"in" ++
      parens (commaToks ((List.range' (p + 1) xs.length).map fun i => [.param (itoa i)]))
  | .anyOf k _ => lex x.column ++ .op b!"=" :: kw b!"any" ++ parens (.param (itoa (p + 1)) :: castToks k)

def segToks (p : Nat) : Filter.Seg α → List Tok
  | .pred x => predToks p x
  | .and => kw b!"and"
  | .or => kw b!"or"
  | .opn => [.punct '(']
  | .cls => [.punct ')']

def segParams : Filter.Seg α → Nat
  | .pred x => predParams x
  | _ => 0

def segsToks : Nat → List (Filter.Seg α) → List Tok
  | _, [] => []
  | p, s :: ss => segToks p s ++ segsToks (p + segParams s) ss

def segsParams (ss : List (Filter.Seg α)) : Nat := (ss.map segParams).sum

theorem nodeToks_seg (p : Nat) (n : Filter.Node α) : nodeToks p n = segToks p n.seg ∧ nodeParams n = segParams n.seg := by
  cases n <;> exact ⟨rfl, rfl⟩

theorem nodesToks_segs : ∀ (ns : List (Filter.Node α)) (p : Nat), nodesToks p ns = segsToks p (ns.map Filter.Node.seg)
  | [], _ => rfl
  | n :: ns, p => by
    rw [nodesToks, List.map_cons, segsToks, nodesToks_segs ns, (nodeToks_seg p n).1, (nodeToks_seg p n).2]

theorem segsToks_append : ∀ (a b : List (Filter.Seg α)) (p : Nat),
    segsToks p (a ++ b) = segsToks p a ++ segsToks (p + segsParams a) b
  | [], b, p => rfl
  | s :: a, b, p => by
    rw [List.cons_append, segsToks, segsToks, segsToks_append a b, List.append_assoc]
    simp only [segsParams, List.map_cons, List.sum_cons, Nat.add_assoc]

theorem segsParams_append (a b : List (Filter.Seg α)) : segsParams (a ++ b) = segsParams a + segsParams b := by
  simp [segsParams]

/-! ### Columns -/

theorem colOf_reads {ts : List Tok} {x : Ex} (h : colOf ts = some x) {m n : Nat} (hn : ts.length ≤ n) :
    Atomic m n ts x := by
  cases ts with
  | nil => cases h
  | cons t r =>
    rw [colOf] at h
    split at h
    · next hc =>
      cases h
      obtain ⟨ht, hd⟩ := hc
      obtain ⟨hr, hlab⟩ := dots_inv r.length r (Nat.le_refl _)
      rw [List.length_eq_zero_iff.1 hd, List.append_nil] at hr
      have hstart : startTok t = true := by
        cases t with
        | word w => simp only [isName] at ht; simp [startTok, ht]
        | name _ => rfl
        | _ => cases ht
      refine ⟨.of_prim (by simp) fun rest hrest => ?_, .inl hstart, hn⟩
      have hnd := noDot_of hrest
      have hdots : dots (r ++ rest) = ((dots r).1, rest) := by
        rw [hr, dots_dotted _ _ hlab hnd, ← hr]
      have hcall : ∀ w s, t = .word w → r ++ rest ≠ .punct '(' :: s := by
        intro w s _ he
        cases hl : (dots r).1 with
        | nil =>
          rw [hl] at hr
          simp only [dotted] at hr
          rw [hr, List.nil_append] at he
          rw [he] at hrest
          cases hrest
        | cons y ys =>
          rw [hl] at hr
          simp only [dotted] at hr
          rw [hr] at he
          simp at he
      rw [List.cons_append]
      cases t with
      | word w =>
        have hnc : isConst (.word w) = false := name_not_const ht
        simp only [prim, hnc, Bool.false_eq_true, if_false]
        unfold nameOrCall
        split
        · next heq hs => exact absurd hs (hcall _ _ rfl)
        · rw [if_pos ht, hdots]
      | name w =>
        simp only [prim, isConst, Bool.false_eq_true, if_false, nameOrCall]
        rw [if_pos ht, hdots]
      | _ => cases ht
    · cases h

theorem colOf_begins {ts : List Tok} {x : Ex} (h : colOf ts = some x) : Begins ts :=
  (colOf_reads (m := 0) (n := ts.length) h (Nat.le_refl _)).begins

/-! ### Predicates -/

/-- A parameter, as a value of Print.lean. -/
def par : VExpr Nat := .param 0

def parText (k : Nat) : Nat → Bytes := fun _ => ordinal k

theorem lex_ordinal (k : Nat) : lex (ordinal k) = [.param (itoa k)] := (reads_ordinal k).lex

theorem par_toks (k : Nat) : valToks (parText k) par = [.param (itoa k)] := lex_ordinal k

theorem par_tree (k : Nat) : valTree (parText k) par = paramEx k := by
  show atomEx (lex (ordinal k)) = _
  rw [lex_ordinal]
  rfl

theorem par_gram (k : Nat) : ValGram (parText k) par := by
  show AtomText (ordinal k)
  rw [AtomText, lex_ordinal]
  rfl

theorem par_fits {m n k : Nat} (hn : 1 ≤ n) : Fits (parText k) m n par :=
  ⟨par_gram k, by rw [par_toks]; exact hn, by rw [par_toks]; simp⟩

theorem par_rhs {o : List Tok} {mk : Ex → Ex} {X : Ex} (k : Nat) :
    rhsTree (parText k) o mk X par = mk (paramEx k) := by
  rw [← par_tree]
  rfl

section
variable {m n k : Nat} {L rest : List Tok} {X : Ex}

theorem opOf_reads {ts : List Tok} {g : Ex → Ex → Ex} (h : opOf ts = some g) (hl : Atomic m n L X)
    (h2 : 2 ≤ n) (hr : Ends cont5 rest) :
    notLevel (expr m) n n (L ++ ts ++ [.param (itoa k)] ++ rest) = some (g X (paramEx k), rest) := by
  have hb : Begins (L ++ ts ++ [.param (itoa k)] ++ rest) := by
    simp only [List.append_assoc]; exact hl.begins.append
  have hpar := par_fits (m := m) (n := n) (k := k) (by omega)
  have hpg : ∀ op, RhsGram (parText k) op par := fun op => par_gram k
  have hpl : (valToks (parText k) par).length = 1 := by rw [par_toks]; rfl
  unfold opOf at h
  split at h
  · next o =>
    split at h
    · cases h
    · next ha =>
      cases h
      by_cases hc : isCmp o = true
      · refine not_of_cmp (by omega) hb ?_ hr
        have := cmp_reads hc hl (hpg .eq) (by omega) (by omega) hr.to4.to3
        rw [par_toks, par_rhs] at this
        simpa using this
      · have ho : isOther o = true := by simp only [isOther]; simp_all
        refine not_of_cmp (by omega) hb (cmp_of_range (range_of_op ?_ hr.to4.to3) hr.to4) hr
        have := other_reads ho h2 hl (hpg .eq) (by omega) (by omega) hr.to4.to3.to2
        rw [par_toks, par_rhs] at this
        simpa using this
  · rw [Option.map_eq_some_iff] at h
    obtain ⟨e, he, rfl⟩ := h
    have hm := List.mem_of_find?_eq_some he
    have ht := List.find?_some he
    have ht : ts = e.1.map Tok.word := (of_decide_eq_true ht).symm
    subst ht
    have hlike : ∀ (not : Bool) (w : Bytes), (w = b!"like" ∨ w = b!"ilike") →
        notLevel (expr m) n n (L ++ (notToks not ++ kw w) ++ [.param (itoa k)] ++ rest) =
          some (.like not w X (paramEx k), rest) := by
      intro not w hw
      refine not_of_cmp (by omega) (by simp only [List.append_assoc]; exact hl.begins.append)
        (cmp_of_range ?_ hr.to4) hr
      have := like_reads not hw hl (hpg .eq) (by omega) (by omega) hr.to4.to3.to2
      rw [par_toks, par_rhs] at this
      simpa using this
    have hsim : ∀ (not : Bool),
        notLevel (expr m) n n (L ++ (notToks not ++ kw b!"similar" ++ kw b!"to") ++ [.param (itoa k)] ++ rest) =
          some (.like not b!"similar" X (paramEx k), rest) := by
      intro not
      refine not_of_cmp (by omega) (by simp only [List.append_assoc]; exact hl.begins.append)
        (cmp_of_range ?_ hr.to4) hr
      have := similar_reads not hl hpar hr.to4.to3.to2
      rw [par_toks, par_tree] at this
      simpa using this
    have hdis : ∀ (not : Bool),
        notLevel (expr m) n n (L ++ (kw b!"is" ++ notToks not ++ kw b!"distinct" ++ kw b!"from") ++
          [.param (itoa k)] ++ rest) = some (.distinct not X (paramEx k), rest) := by
      intro not
      rw [not_of_is (by omega) (by simp only [List.append_assoc]; exact hl.begins.append)]
      have := distinct_reads not hl hpar hr.to4
      rw [par_toks, par_tree] at this
      simpa using this
    simp only [wordOps, List.mem_cons, List.not_mem_nil, or_false] at hm
    rcases hm with rfl | rfl | rfl | rfl | rfl | rfl | rfl | rfl
    · exact hlike false _ (.inl rfl)
    · exact hlike true _ (.inl rfl)
    · exact hlike false _ (.inr rfl)
    · exact hlike true _ (.inr rfl)
    · exact hsim false
    · exact hsim true
    · exact hdis false
    · exact hdis true

theorem isOf_reads {ts : List Tok} {g : Ex → Ex} (h : isOf ts = some g) (hl : Atomic m n L X) (h1 : 1 ≤ n) :
    notLevel (expr m) n n (L ++ ts ++ rest) = some (g X, rest) := by
  rw [not_of_is h1 (by simp only [List.append_assoc]; exact hl.begins.append)]
  unfold isOf at h
  rw [Option.map_eq_some_iff] at h
  obtain ⟨e, he, rfl⟩ := h
  have hm := List.mem_of_find?_eq_some he
  have ht := List.find?_some he
  have ht : ts = e.1.map Tok.word := (of_decide_eq_true ht).symm
  subst ht
  simp only [isWords, List.mem_cons, List.not_mem_nil, or_false] at hm
  rcases hm with rfl | rfl | rfl | rfl | rfl | rfl
  · exact is_reads false b!"null" (by simp) hl
  · exact is_reads true b!"null" (by simp) hl
  · exact is_reads false b!"true" (by simp) hl
  · exact is_reads true b!"true" (by simp) hl
  · exact is_reads false b!"false" (by simp) hl
  · exact is_reads true b!"false" (by simp) hl

/-- `= ANY` of an array. -/
theorem any_reads (K : Filter.SliceKind) (hl : Atomic m n L X) (h : 8 ≤ n) (hm : 8 ≤ m + 1) (hr : Ends cont5 rest) :
    notLevel (expr m) n n (L ++ .op b!"=" :: kw b!"any" ++ parens (.param (itoa k) :: castToks K) ++ rest) =
      some (.quant [.op b!"="] b!"any" X (.cast (paramEx k) (lex (Filter.arrayTypeName K))), rest) := by
  have hT : castToks K = .cast :: lex (Filter.arrayTypeName K) ∧ (castToks K).length = 4 ∧
      TypeText (Filter.arrayTypeName K) := by cases K <;> decide
  have hv : valToks (parText k) (.quantified .any (.cast par (Filter.arrayTypeName K))) =
      kw b!"any" ++ parens (.param (itoa k) :: castToks K) := by
    rw [valToks, valToks, par_toks, hT.1]
    rfl
  have hlen : (valToks (parText k) (.quantified .any (.cast par (Filter.arrayTypeName K)))).length = 8 := by
    rw [hv]; simp [kw, parens, hT.2.1]
  refine not_of_cmp (by omega) (by simp only [List.append_assoc]; exact hl.begins.append) ?_ hr
  have := cmp_reads (o := b!"=") (r := .quantified .any (.cast par (Filter.arrayTypeName K))) (f := parText k) (by decide) hl
    (op := .eq) ⟨rfl, par_gram k, hT.2.2⟩ (by omega) (by omega) hr.to4.to3
  rw [hv] at this
  simpa [rhsTree, quantWord, valTree, par_tree] using this

/-- The text search. -/
theorem search_reads (hl : Atomic m n L X) (h : 2 ≤ n) (hm : 1 ≤ m) (hr : Ends cont5 rest) :
    notLevel (expr m) n n (L ++ .op b!"@@" :: .word b!"to_tsquery" ::
        parens (commaToks [[.str b!"simple"], [.param (itoa k)]]) ++ rest) =
      some (.op b!"@@" X (.call b!"to_tsquery" [.const (.str b!"simple"), paramEx k]), rest) := by
  refine not_of_cmp (by omega) (by simp only [List.append_assoc]; exact hl.begins.append)
    (cmp_of_range (range_of_op ?_ hr.to4.to3) hr.to4) hr
  have hp : prim (expr m) n (.word b!"to_tsquery" :: .punct '(' :: .str b!"simple" :: .punct ',' ::
      .param (itoa k) :: .punct ')' :: rest) =
      some (.call b!"to_tsquery" [.const (.str b!"simple"), paramEx k], rest) :=
    prim_call (by decide) (.inl rfl) (listOf_two h (const_expr hm rfl rfl) (const_expr hm rfl rfl))
  have hneg : negLevel (expr m) n (.word b!"to_tsquery" :: .punct '(' :: .str b!"simple" :: .punct ',' ::
      .param (itoa k) :: .punct ')' :: rest) =
      some (.call b!"to_tsquery" [.const (.str b!"simple"), paramEx k], rest) := by
    rw [neg_of_cast (show Begins (.word b!"to_tsquery" :: _) from .inl (by decide))]
    unfold castLevel
    rw [hp, Option.bind_some]
    exact castLoop_ends (by omega) hr.to4.to3.to2.to1
  unfold opLevel
  simp only [parens, commaToks, List.append_assoc, List.cons_append, List.nil_append]
  rw [hl.neg (by simp [Ends, cont1, cont0])]
  match n, h with
  | j + 2, _ =>
    simp only [Option.bind_some, opLoop, (by decide : isOther b!"@@" = true), if_true, rhs,
      (by decide : isQuant b!"to_tsquery" = false), Bool.false_eq_true, if_false]
    rw [hneg]
    simp only [Option.map_some, Option.bind_some]
    have hr2 := hr.to4.to3.to2
    unfold opLoop
    split
    · omega
    · next o r => rw [if_neg]; simp_all [Ends, cont2]
    · rfl

end

theorem predToks_split (p : Nat) (x : Filter.Pred α) : ∃ r, predToks p x = lex x.column ++ r := by
  unfold predToks
  split
  · exact ⟨_, List.append_assoc ..⟩
  · exact ⟨_, rfl⟩
  · exact ⟨_, rfl⟩
  · exact ⟨_, List.append_assoc ..⟩
  · exact ⟨_, List.append_assoc ..⟩

/-- A predicate is read as meant. -/
theorem pred_reads {p : Nat} {x : Filter.Pred α} {t : Ex} (h : predTree p x = some t) :
    Begins (predToks p x) ∧ ∀ (m n : Nat) (rest : List Tok), (predToks p x).length ≤ n →
      (predToks p x).length ≤ m + 1 → Ends cont5 rest →
      notLevel (expr m) n n (predToks p x ++ rest) = some (t, rest) := by
  unfold predTree at h
  rw [Option.bind_eq_some_iff] at h
  obtain ⟨c, hc, h⟩ := h
  have hb := colOf_begins hc
  refine ⟨?_, fun m n rest hn hm hr => ?_⟩
  · obtain ⟨r, hr⟩ := predToks_split p x
    rw [hr]; exact hb.append
  · have h1 := hb.length
    have hl : Atomic m n (lex x.column) c := by
      obtain ⟨r, hr⟩ := predToks_split p x
      rw [hr, List.length_append] at hn
      exact colOf_reads hc (by omega)
    cases hf : x.form with
    | cmp op v =>
      simp only [hf, Option.map_eq_some_iff] at h
      obtain ⟨g, hg, rfl⟩ := h
      simp only [predToks, hf, List.length_append, List.length_cons, List.length_nil] at hn hm ⊢
      exact opOf_reads hg hl (by omega) hr
    | is w =>
      simp only [hf, Option.map_eq_some_iff] at h
      obtain ⟨g, hg, rfl⟩ := h
      simp only [predToks, hf, List.length_append] at hn hm ⊢
      exact isOf_reads hg hl (by omega)
    | search s =>
      simp only [hf, Option.some.injEq] at h
      subst h
      simp only [predToks, hf, List.length_append, List.length_cons] at hn hm ⊢
      exact search_reads hl (by omega) (by omega) hr
    | anyOf K xs =>
      simp only [hf, Option.some.injEq] at h
      subst h
      have hK : (castToks K).length = 4 := by cases K <;> rfl
      simp only [predToks, hf, List.length_append, List.length_cons, kw, parens, List.length_nil, hK] at hn hm ⊢
      exact any_reads K hl (by omega) (by omega) hr
    | isIn xs =>
      simp only [hf] at h
      split at h
      · cases h
      · next hne =>
        cases h
        have hmap : ((List.range' (p + 1) xs.length).map fun i => ([.param (itoa i)] : List Tok)) =
            ((List.range' (p + 1) xs.length).map fun i => Tok.param (itoa i)).map ([·]) := by
          rw [List.map_map]; rfl
        simp only [predToks, hf, hmap, List.length_append, List.length_cons, kw, parens, List.length_nil] at hn hm ⊢
        refine not_of_cmp (by omega) (by simp only [List.append_assoc]; exact hb.append) (cmp_of_range ?_ hr.to4) hr
        have := in_list (rest := rest) (ts := (List.range' (p + 1) xs.length).map fun i => Tok.param (itoa i)) false hl
          (by
            intro e
            have := congrArg List.length e
            simp at this
            exact hne (by simp [this]))
          (by
            intro y hy
            obtain ⟨i, _, rfl⟩ := List.mem_map.1 hy
            rfl) (by omega) (by omega)
        rw [List.map_map] at this
        rw [show (List.range' (p + 1) xs.length).map paramEx =
          (List.range' (p + 1) xs.length).map (Ex.const ∘ fun i => Tok.param (itoa i)) from rfl]
        simpa [notToks, kw, parens] using this

/-! ### Conditions -/

/-- What is read at the level. -/
def LevelReads (ts : List Tok) (t : Ex) : Level → Prop
  | .fact => ∀ (m n : Nat) (rest : List Tok), ts.length ≤ n → ts.length ≤ m + 1 → Ends cont5 rest →
      notLevel (expr m) n n (ts ++ rest) = some (t, rest)
  | .conj => ∀ (m n : Nat) (rest : List Tok), ts.length ≤ n → ts.length ≤ m + 1 → Ends cont5 rest →
      ∃ j, n + 1 ≤ j + ts.length ∧ andLevel (expr m) n (ts ++ rest) = andLoop (expr m) n j t rest
  | .disj => ∀ (m : Nat) (rest : List Tok), ts.length ≤ m + 1 → Ends cont6 rest →
      ∃ j, m + 2 ≤ j + ts.length ∧ expr (m + 1) (ts ++ rest) = orLoop (expr m) (m + 1) j t rest

/-- What is meant is what is read. -/
theorem meant_reads {l : Level} {p q : Nat} {e : List (Filter.Seg α)} {t : Ex} (h : Meant l p e q t) :
    q = p + segsParams e ∧ Begins (segsToks p e) ∧ LevelReads (segsToks p e) t l := by
  induction h with
  | pred h =>
    have := pred_reads h
    refine ⟨by simp [segsParams, segParams], ?_, ?_⟩
    · simpa [segsToks, segToks] using this.1
    · simpa [segsToks, segToks, LevelReads] using this.2
  | @paren p e q t h ih =>
    obtain ⟨h1, h2, h3⟩ := ih
    have ht : segsToks p (.opn :: e ++ [.cls]) = parens (segsToks p e) := by
      rw [List.cons_append, segsToks, segsToks_append]
      simp [segToks, segParams, segsToks, parens]
    refine ⟨?_, ?_, ?_⟩
    · rw [h1]; simp [segsParams, segParams]
    · rw [ht]; exact .inr rfl
    · rw [ht]
      intro m n rest hn hm hr
      refine Reads.notLevel (ts := parens (segsToks p e)) (.of_prim (by simp [parens]) fun rest _ => ?_) (.inr rfl) hn hr
      simp only [parens, List.length_append, List.length_cons, List.length_nil] at hm
      have hp := h2.length
      obtain ⟨k, rfl⟩ : ∃ k, m = k + 1 := ⟨m - 1, by omega⟩
      obtain ⟨j, hj, he⟩ := h3 k (.punct ')' :: rest) (by omega) rfl
      rw [orLoop_ends (by omega) (show Ends cont7 (.punct ')' :: rest) from rfl)] at he
      simp [parens, prim, he, close]
  | @fact p e q t h ih =>
    obtain ⟨h1, h2, h3⟩ := ih
    refine ⟨h1, h2, fun m n rest hn hm hr => ⟨n, by have := h2.length; omega, ?_⟩⟩
    unfold andLevel
    rw [h3 m n rest hn hm hr]
    rfl
  | @and p a q t b r u ha hb iha ihb =>
    obtain ⟨a1, a2, a3⟩ := iha
    obtain ⟨b1, b2, b3⟩ := ihb
    have ht : segsToks p (a ++ .and :: b) = segsToks p a ++ .word b!"and" :: segsToks q b := by
      rw [segsToks_append, segsToks, a1]
      rfl
    refine ⟨?_, ?_, ?_⟩
    · rw [segsParams_append, b1, a1]; simp [segsParams, segParams]; omega
    · rw [ht]; exact a2.append
    · rw [ht]
      intro m n rest hn hm hr
      simp only [List.length_append, List.length_cons] at hn hm
      obtain ⟨j, hj, he⟩ := a3 m n (.word b!"and" :: (segsToks q b ++ rest)) (by omega) (by omega) rfl
      obtain ⟨i, rfl⟩ : ∃ i, j = i + 1 := ⟨j - 1, by omega⟩
      refine ⟨i, by simp only [List.length_append, List.length_cons]; omega, ?_⟩
      rw [List.append_assoc, List.cons_append, he]
      simp only [andLoop, if_true]
      rw [b3 m n rest (by omega) (by omega) hr]
      rfl
  | @conj p e q t h ih =>
    obtain ⟨h1, h2, h3⟩ := ih
    refine ⟨h1, h2, fun m rest hm hr => ⟨m + 1, by have := h2.length; omega, ?_⟩⟩
    obtain ⟨j, hj, he⟩ := h3 m (m + 1) rest hm hm hr.to5
    unfold expr
    rw [he, andLoop_ends (by omega) hr]
    rfl
  | @or p a q t b r u ha hb iha ihb =>
    obtain ⟨a1, a2, a3⟩ := iha
    obtain ⟨b1, b2, b3⟩ := ihb
    have ht : segsToks p (a ++ .or :: b) = segsToks p a ++ .word b!"or" :: segsToks q b := by
      rw [segsToks_append, segsToks, a1]
      rfl
    refine ⟨?_, ?_, ?_⟩
    · rw [segsParams_append, b1, a1]; simp [segsParams, segParams]; omega
    · rw [ht]; exact a2.append
    · rw [ht]
      intro m rest hm hr
      simp only [List.length_append, List.length_cons] at hm
      obtain ⟨j, hj, he⟩ := a3 m (.word b!"or" :: (segsToks q b ++ rest)) (by omega) rfl
      obtain ⟨i, rfl⟩ : ∃ i, j = i + 1 := ⟨j - 1, by omega⟩
      refine ⟨i, by simp only [List.length_append, List.length_cons]; omega, ?_⟩
      rw [List.append_assoc, List.cons_append, he]
      obtain ⟨j2, hj2, he2⟩ := b3 m (m + 1) rest (by omega) (by omega) hr.to5
      simp only [orLoop, if_true]
      rw [he2, andLoop_ends (by omega) hr]
      rfl

theorem meant_expr {p q : Nat} {e : List (Filter.Seg α)} {t : Ex} (h : Meant .disj p e q t) {n : Nat}
    (hn : (segsToks p e).length ≤ n) : Reader n (segsToks p e) t := by
  intro rest hr
  obtain ⟨_, h2, h3⟩ := meant_reads h
  have := h2.length
  obtain ⟨m, rfl⟩ : ∃ m, n = m + 1 := ⟨n - 1, by omega⟩
  obtain ⟨j, hj, he⟩ := h3 m rest hn hr.to6
  rw [he]
  exact orLoop_ends (by omega) hr

/-- **C90** A sequence of predicates, connectives and parentheses means one tree at most. -/
theorem C90_meant_unique {p q q' : Nat} {e : List (Filter.Seg α)} {t t' : Ex} (h : Meant .disj p e q t)
    (h' : Meant .disj p e q' t') : t = t' ∧ q = q' := by
  refine ⟨?_, by rw [(meant_reads h).1, (meant_reads h').1]⟩
  have h1 := meant_expr h (Nat.le_refl _) [] trivial
  have h2 := meant_expr h' (Nat.le_refl _) [] trivial
  rw [h1] at h2
  simpa using h2

/-! ### Everything that is a boolean expression means something -/

theorem predTree_some {x : Filter.Pred α} (h : PredGram x) (p : Nat) : ∃ t, predTree p x = some t := by
  rw [← Option.isSome_iff_exists]
  unfold PredGram at h
  unfold predTree at h ⊢
  cases hc : colOf (lex x.column) with
  | none => rw [hc] at h; cases h
  | some c =>
    rw [hc] at h
    simp only [Option.bind_some] at h ⊢
    cases hf : x.form with
    | cmp op v => simpa [hf] using h
    | is w => simpa [hf] using h
    | isIn xs =>
      simp only [hf] at h ⊢
      split at h
      · cases h
      · next hne => rw [if_neg hne]; rfl
    | anyOf k xs => rfl
    | search s => rfl

theorem and_base {p q r : Nat} {a b : List (Filter.Seg α)} {t u : Ex} (ha : Meant .disj p a q t)
    (hb : Meant .fact q b r u) : ∃ v, Meant .disj p (a ++ .and :: b) r v := by
  cases ha with
  | conj h => exact ⟨_, .conj (.and h hb)⟩
  | or h1 h2 =>
    rw [List.append_assoc, List.cons_append]
    exact ⟨_, .or h1 (.and h2 hb)⟩

theorem and_cat {l : Level} {q r : Nat} {b : List (Filter.Seg α)} {u : Ex} (hb : Meant l q b r u) :
    ∀ {p : Nat} {a : List (Filter.Seg α)} {t : Ex}, Meant .disj p a q t → ∃ v, Meant .disj p (a ++ .and :: b) r v := by
  induction hb with
  | pred h => exact fun ha => and_base ha (.pred h)
  | paren h => exact fun ha => and_base ha (.paren h)
  | fact _ ih => exact ih
  | and _ _ ih1 ih2 =>
    intro p a t ha
    obtain ⟨v, hv⟩ := ih1 ha
    obtain ⟨w, hw⟩ := ih2 hv
    exact ⟨w, by simpa using hw⟩
  | conj _ ih => exact ih
  | or _ h2 ih1 _ =>
    intro p a t ha
    obtain ⟨v, hv⟩ := ih1 ha
    exact ⟨_, by simpa using Meant.or hv h2⟩

theorem or_cat {l : Level} {q r : Nat} {b : List (Filter.Seg α)} {u : Ex} (hb : Meant l q b r u) :
    ∀ {p : Nat} {a : List (Filter.Seg α)} {t : Ex}, Meant .disj p a q t → ∃ v, Meant .disj p (a ++ .or :: b) r v := by
  induction hb with
  | pred h => exact fun ha => ⟨_, .or ha (.fact (.pred h))⟩
  | paren h => exact fun ha => ⟨_, .or ha (.fact (.paren h))⟩
  | fact _ ih => exact ih
  | and h1 h2 _ _ => exact fun ha => ⟨_, .or ha (.and h1 h2)⟩
  | conj _ ih => exact ih
  | or _ h2 ih1 _ =>
    intro p a t ha
    obtain ⟨v, hv⟩ := ih1 ha
    exact ⟨_, by simpa using Meant.or hv h2⟩

theorem preds_append : ∀ (a b : List (Filter.Seg α)), Filter.preds (a ++ b) = Filter.preds a ++ Filter.preds b
  | [], _ => rfl
  | .pred p :: a, b => by simp [Filter.preds, preds_append a b]
  | .and :: a, b | .or :: a, b | .opn :: a, b | .cls :: a, b => by simp [Filter.preds, preds_append a b]

/-- **C90** Every boolean expression of predicates that make sense means a tree. -/
theorem C90_meant {e : List (Filter.Seg α)} (h : Filter.BoolExpr e) : ∀ (p : Nat),
    (∀ x ∈ Filter.preds e, PredGram x) → ∃ q t, Meant .disj p e q t := by
  induction h with
  | pred x =>
    intro p hp
    obtain ⟨t, ht⟩ := predTree_some (hp x (by simp [Filter.preds])) p
    exact ⟨_, _, .conj (.fact (.pred ht))⟩
  | paren _ ih =>
    intro p hp
    obtain ⟨q, t, h⟩ := ih p fun x hx => hp x (by simpa [Filter.preds, preds_append] using hx)
    exact ⟨_, _, .conj (.fact (.paren h))⟩
  | and _ _ iha ihb =>
    intro p hp
    obtain ⟨q, t, ha⟩ := iha p fun x hx => hp x (by rw [preds_append]; exact List.mem_append_left _ hx)
    obtain ⟨r, u, hb⟩ := ihb q fun x hx => hp x (by rw [preds_append]; exact List.mem_append_right _ hx)
    obtain ⟨v, hv⟩ := and_cat hb ha
    exact ⟨_, _, hv⟩
  | or _ _ iha ihb =>
    intro p hp
    obtain ⟨q, t, ha⟩ := iha p fun x hx => hp x (by rw [preds_append]; exact List.mem_append_left _ hx)
    obtain ⟨r, u, hb⟩ := ihb q fun x hx => hp x (by rw [preds_append]; exact List.mem_append_right _ hx)
    obtain ⟨v, hv⟩ := or_cat hb ha
    exact ⟨_, _, hv⟩

end Verif.Generator.Gram
