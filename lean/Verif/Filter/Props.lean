import Verif.Filter.Lemmas4
/-
Property theorems for package filter: C01 - C11 (see properties.jsonl).
`filterSQL colmap tscol calls pos` is `Filter().ToSQL(pos)` after the calls on a new Constructor.
-/
namespace Verif.Filter

open Verif

variable {α : Type}

/-! ## C01 -/

/-- C01, text and params: the WHERE clause is a sequence of segments whose predicates are the
requested ones in order; the text is the template of that sequence rendered at `pos` (holes
numbered `$pos+1, $pos+2, ...`) followed by text that does not depend on `pos`; the params are the
values of the holes. ToSQL panics exactly when a placeholder past $65535 would be needed. -/
theorem C01_filter_text (cm : List (Bytes × Column α)) (tscol : Bytes) (calls : List (Call α)) :
    ∃ (segs : List (Seg α)) (tail : Bytes),
      preds segs = requested cm tscol calls false ∧
      ∀ pos, filterSQL cm tscol calls pos =
        if (holes (wherePieces segs)).length = 0 ∨ pos + (holes (wherePieces segs)).length ≤ 65535
        then some (render (wherePieces segs) pos ++ tail, holes (wherePieces segs))
        else none := by
  refine ⟨segsOf cm tscol calls, tailText (runCalls calls (Cons.initV2 {} cm tscol)).filter,
    segsOf_preds .., fun pos => ?_⟩
  rw [filterSQL_eq, countSQL_eq]
  generalize wherePieces _ = ps
  dsimp only
  by_cases h : (holes ps).length = 0 ∨ pos + (holes ps).length ≤ 65535
  · rw [if_pos (by simpa [maxParams] using h), if_pos h]; rfl
  · rw [if_neg (by simpa [maxParams] using h), if_neg h]; rfl

/-- C01, the operator words `ANY` and `IN` are recognised in any case. -/
theorem C01_operator_words (op : Bytes) :
    (Cons.toUpper op = b!"ANY" ↔
      op ∈ [b!"ANY", b!"ANy", b!"AnY", b!"Any", b!"aNY", b!"aNy", b!"anY", b!"any"]) ∧
    (Cons.toUpper op = b!"IN" ↔ op ∈ [b!"IN", b!"In", b!"iN", b!"in"]) := by
  have hA : ∀ c : Char, c.toUpper = 'A' ↔ c = 'A' ∨ c = 'a' := toUpper_iff 'A' 'a' (by decide) (by decide)
  have hN : ∀ c : Char, c.toUpper = 'N' ↔ c = 'N' ∨ c = 'n' := toUpper_iff 'N' 'n' (by decide) (by decide)
  have hY : ∀ c : Char, c.toUpper = 'Y' ↔ c = 'Y' ∨ c = 'y' := toUpper_iff 'Y' 'y' (by decide) (by decide)
  have hI : ∀ c : Char, c.toUpper = 'I' ↔ c = 'I' ∨ c = 'i' := toUpper_iff 'I' 'i' (by decide) (by decide)
  constructor
  · rcases op with _ | ⟨a, _ | ⟨b, _ | ⟨c, _ | ⟨d, r⟩⟩⟩⟩ <;>
      simp [Cons.toUpper, hA, hN, hY]
    grind
  · rcases op with _ | ⟨a, _ | ⟨b, _ | ⟨c, r⟩⟩⟩ <;>
      simp [Cons.toUpper, hI, hN]
    grind

/-- C01, placeholders and params: if no column name or operator contains a `$`, the placeholders
found in the SQL text are exactly `$pos+1 ... $pos+k`, each once, left to right, where `k` is the
number of params, and the params are the values supplied with the requested predicates in order. -/
theorem C01_filter_placeholders (cm : List (Bytes × Column α)) (tscol : Bytes)
    (calls : List (Call α)) (pos : Nat) (sql : Bytes) (params : List (Param α))
    (hcol : ∀ p ∈ requested cm tscol calls false, p.noDollar)
    (hord : ∀ i ∈ ordering cm calls false, '$' ∉ i.column)
    (h : filterSQL cm tscol calls pos = some (sql, params)) :
    placeholders sql = List.range' (pos + 1) params.length ∧
    params = (requested cm tscol calls false).flatMap (fun p => holes p.pieces) := by
  rw [filterSQL_eq, countSQL_eq] at h
  dsimp only at h
  have hw := holes_where (segsOf cm tscol calls)
  rw [segsOf_preds] at hw
  split at h
  · simp only [Option.map_some, Option.some.injEq, Prod.mk.injEq] at h
    obtain ⟨h1, h2⟩ := h
    rw [← h2]
    refine ⟨?_, hw⟩
    rw [← h1]
    -- the tail carries no placeholder and does not start with a digit
    have htail := tailText_eq cm tscol calls
    dsimp only at htail
    generalize tailText (runCalls calls (Cons.initV2 {} cm tscol)).filter = tail at htail ⊢
    have hdig : ∀ n, '$' ∉ Nat.toDigits 10 n := by
      intro n hn
      have := Nat.isDigit_of_mem_toDigits (by omega) (by omega) hn
      simp [Char.isDigit] at this
    have hitems : '$' ∉ orderByText (ordering cm calls false) := by
      unfold orderByText
      split
      · simp
      · have key : ∀ its : List OrderItem, (∀ i ∈ its, '$' ∉ i.column) →
            '$' ∉ (b!", ").intercalate (its.map OrderItem.text) := by
          intro its hits
          have htext : ∀ i ∈ its, '$' ∉ i.text := by
            intro i hi
            have := hits i hi
            unfold OrderItem.text
            cases i.desc <;> rcases i.nulls with _ | _ | _ <;> simp [this]
          cases its with
          | nil => simp
          | cons i is =>
            rw [List.map_cons, intercalate_cons]
            simp only [List.mem_append, not_or, List.mem_flatten, List.mem_map]
            refine ⟨htext i (by simp), ?_⟩
            rintro ⟨l, ⟨a, ⟨j, hj, rfl⟩, rfl⟩, hl⟩
            simp only [List.mem_append] at hl
            rcases hl with hl | hl
            · simp at hl
            · exact htext j (by simp [hj]) hl
        simp only [List.mem_append, not_or]
        exact ⟨by decide, key _ hord⟩
    have hclause : ∀ kw : Bytes, '$' ∉ kw → ∀ o, '$' ∉ clause kw o := by
      intro kw hkw o
      cases o with
      | none => simp [clause]
      | some n => simp only [clause, List.mem_append, not_or]; exact ⟨hkw, hdig _⟩
    have hoff : '$' ∉ (if (runCalls calls (Cons.initV2 {} cm tscol)).filter.offset > 0 then
        b!" OFFSET " ++ formatPos (runCalls calls (Cons.initV2 {} cm tscol)).filter.offset else []) := by
      split
      · simp only [List.mem_append, not_or]; exact ⟨by decide, hdig _⟩
      · simp
    have hnd : '$' ∉ tail := by
      rw [htail]
      simp only [List.mem_append, not_or]
      exact ⟨⟨hitems, hclause _ (by decide) _⟩, hoff⟩
    have hstart : NoDigit tail := by
      rw [htail]
      unfold orderByText
      split
      · cases lastPositive (limitArgs calls) with
        | none =>
          simp only [clause, List.nil_append]
          split
          · simp only [NoDigit, List.cons_append]; decide
          · trivial
        | some n => simp only [clause, List.nil_append, NoDigit, List.cons_append]; decide
      · simp only [NoDigit, List.cons_append]; decide
    have hsep : Sep (wherePieces (segsOf cm tscol calls)) tail := by
      unfold wherePieces
      split
      · trivial
      · refine ⟨by decide, ?_⟩
        apply sep_segs _ _ (WInv.runs glued_inv calls (by trivial)) hstart
        have := segsOf_preds cm tscol calls
        unfold segsOf at this
        rw [this]
        exact hcol
    rw [placeholders_render _ _ hsep]
    have : placeholders tail = [] := by
      have := placeholders_lit tail [] hnd
      simpa [placeholders] using this
    rw [this, List.append_nil]
  · simp at h

/-- C01 is not vacuous: three parameters from different methods, nested, starting after $4. -/
example : filterSQL (α := Nat) [] b!"ts"
    [.col b!"a" b!">" (.other 7), .orNest [.colIn b!"b" [1, 2], .textSearch b!"x y"]] 4 =
    some (b!" WHERE a > $5 OR (b IN ($6,$7) AND ts @@ to_tsquery('simple', $8))",
      [.val (.other 7), .elem 1, .elem 2, .text b!"x:* & y:*"]) := by decide

example : placeholders b!" WHERE a > $5 OR (b IN ($6,$7) AND ts @@ to_tsquery('simple', $8))"
    = [5, 6, 7, 8] := by decide

/-! ## C02 -/

/-- C02: call sequences equal up to values give byte-identical SQL (and panic together). -/
theorem C02_values_not_in_text (cm : List (Bytes × Column α)) (tscol : Bytes)
    (hconv : ConvertersOK cm) (calls calls' : List (Call α)) (h : shapes calls = shapes calls')
    (pos : Nat) :
    (filterSQL cm tscol calls pos).map (·.1) = (filterSQL cm tscol calls' pos).map (·.1) := by
  unfold filterSQL
  apply Same.toSQL
  exact Same.runs calls calls' ⟨rfl, rfl, rfl, rfl⟩ hconv h

example : shapes (α := Bytes)
      [.col b!"a" b!"=" (.other b!"1; DROP TABLE x"), .textSearch b!"foo", .colIn b!"c" [b!"u", b!"v"]] =
    shapes [.col b!"a" b!"=" (.other b!"2"), .textSearch b!"bar baz", .colIn b!"c" [b!"", b!"w"]] := by
  simp [shapes, Call.shape, Val.shape]
example : ConvertersOK (α := Bytes) [(b!"k", { name := b!"c" })] := by
  intro kc h f hf; simp at h; subst h; simp at hf

/-! ## C03 -/

/-- C03: parentheses are properly nested, for every call sequence whose FQL inputs (if any) have
properly nested parentheses and are processed without error. -/
theorem C03_parens_nested (cm : List (Bytes × Column α)) (tscol : Bytes) (calls : List (Call α))
    (hfql : ∀ r ∈ fqlRuns calls false, TokNested r.2 ∧ RulesRun cm r.1 r.2) :
    ∃ (segs : List (Seg α)), Nested segs ∧ preds segs = requested cm tscol calls false ∧
      ∀ pos w ps, countSQL cm tscol calls pos = some (w, ps) → w = render (wherePieces segs) pos := by
  obtain ⟨ns, h1, h2⟩ := runs_nested calls (Cons.initV2 {} cm tscol) hfql
  refine ⟨segsOf cm tscol calls, ?_, segsOf_preds .., ?_⟩
  · unfold segsOf; rw [h1]; simpa [Cons.initV2] using h2
  · intro pos w ps h
    rw [countSQL_eq] at h
    dsimp only at h
    split at h
    · simp at h; exact h.1.symm
    · simp at h

example : fqlRuns (α := Nat) [.andNest [.col b!"a" b!"=" (.other 1), .orNest [.col b!"b" b!"=" .nil]]] false = [] := by
  decide

/-! ## C04 -/

/-- C04: under the usage rules the WHERE clause is absent or a boolean expression. -/
theorem C04_where_grammatical (cm : List (Bytes × Column α)) (tscol : Bytes)
    (calls : List (Call α)) (hp : Proper tscol calls)
    (hfql : ∀ r ∈ fqlRuns calls false, ∃ s, TokExpr cm r.2 s) :
    ∃ (segs : List (Seg α)), (segs = [] ∨ BoolExpr segs) ∧
      preds segs = requested cm tscol calls false ∧
      ∀ pos w ps, countSQL cm tscol calls pos = some (w, ps) → w = render (wherePieces segs) pos := by
  refine ⟨segsOf cm tscol calls, ?_, segsOf_preds .., ?_⟩
  · have := runs_at calls (Cons.initV2 {} cm tscol) [] .fresh hfql hp (At.fresh rfl)
    unfold segsOf
    by_cases hex : ∃ y ∈ calls, y.adds tscol
    · obtain ⟨e, he, heq⟩ := at_complete (this.1 hex)
      right; rw [heq]; simpa using he
    · left
      rw [this.2 (fun y hy hc => hex ⟨y, hy, hc⟩)]; rfl
  · intro pos w ps h
    rw [countSQL_eq] at h
    dsimp only at h
    split at h
    · simp at h; exact h.1.symm
    · simp at h

example : Proper (α := Nat) []
    [.and, .col b!"a" b!"=" .nil, .or, .andNest [.colIn b!"b" [1]], .limit 3] := by
  simp [Proper, Call.Proper, Call.bare, Call.adds, colPred]

/-- Outside the usage rules: a trailing `Or(nil)` dangles. -/
theorem C04_not_grammatical_trailing_connective :
    filterSQL (α := Nat) [] [] [.col b!"a" b!"=" (.other 1), .or] 0 =
      some (b!" WHERE a = $1 OR ", [.val (.other 1)]) := by decide

/-- Outside the usage rules: comparing nil with an operator other than = and <> dangles. -/
theorem C04_not_grammatical_nil_operator :
    filterSQL (α := Nat) [] [] [.col b!"a" b!"=" (.other 1), .col b!"b" b!">" .nil] 0 =
      some (b!" WHERE a = $1 AND ", [.val (.other 1)]) := by decide

/-- Outside the usage rules: an empty group gives empty parentheses. -/
theorem C04_not_grammatical_empty_group :
    filterSQL (α := Nat) [] [] [.andNest []] 0 = some (b!" WHERE ()", []) := by decide

/-- Within the usage rules, an empty IN list gives `IN ()`, which is no valid SQL. -/
theorem C04_not_valid_empty_in :
    filterSQL (α := Nat) [] [] [.colIn b!"a" []] 0 = some (b!" WHERE a IN ()", []) := by decide

/-! ## C05 -/

/-- C05: the filter's text is the count filter's text followed by ORDER BY, LIMIT and OFFSET
text that does not depend on the position; params are the same; both panic together. -/
theorem C05_count_filter (cm : List (Bytes × Column α)) (tscol : Bytes) (calls : List (Call α)) :
    ∃ off : Bytes, (off = [] ∨ ∃ n : Nat, off = b!" OFFSET " ++ Nat.toDigits 10 n) ∧ ∀ pos,
      filterSQL cm tscol calls pos = (countSQL cm tscol calls pos).map fun r =>
        (r.1 ++ (orderByText (ordering cm calls false) ++
          clause b!" LIMIT " (lastPositive (limitArgs calls)) ++ off), r.2) := by
  have h := tailText_eq cm tscol calls
  dsimp only at h
  refine ⟨(if (runCalls calls (Cons.initV2 {} cm tscol)).filter.offset > 0 then
    b!" OFFSET " ++ formatPos (runCalls calls (Cons.initV2 {} cm tscol)).filter.offset else []),
    ?_, fun pos => ?_⟩
  · split
    · exact .inr ⟨_, rfl⟩
    · exact .inl rfl
  · rw [filterSQL_eq, h]

/-- C05: the count filter's text is the WHERE clause only. -/
theorem C05_count_filter_where (cm : List (Bytes × Column α)) (tscol : Bytes) (calls : List (Call α))
    (pos : Nat) (w : Bytes) (ps : List (Param α)) (h : countSQL cm tscol calls pos = some (w, ps)) :
    ∃ segs, preds segs = requested cm tscol calls false ∧ w = render (wherePieces segs) pos ∧
      ps = holes (wherePieces segs) := by
  refine ⟨segsOf cm tscol calls, segsOf_preds .., ?_⟩
  rw [countSQL_eq] at h
  dsimp only at h
  split at h
  · simp at h; exact ⟨h.1.symm, h.2.symm⟩
  · simp at h

example : countSQL (α := Nat) [] [] [.col b!"a" b!"=" (.other 1), .limit 5, .orderBy b!"a" true false] 0 =
    some (b!" WHERE a = $1", [.val (.other 1)]) ∧
  filterSQL (α := Nat) [] [] [.col b!"a" b!"=" (.other 1), .limit 5, .orderBy b!"a" true false] 0 =
    some (b!" WHERE a = $1 ORDER BY a DESC NULLS LAST LIMIT 5", [.val (.other 1)]) := by decide

/-! ## C06 -/

/-- C06: LIMIT and OFFSET show the last positive argument, if any. -/
theorem C06_limit_offset (cm : List (Bytes × Column α)) (tscol : Bytes) (calls : List (Call α))
    (hpage : ∀ n, Call.page n ∉ flatCalls calls) (pos : Nat) :
    filterSQL cm tscol calls pos = (countSQL cm tscol calls pos).map fun r =>
      (r.1 ++ (orderByText (ordering cm calls false) ++
        clause b!" LIMIT " (lastPositive (limitArgs calls)) ++
        clause b!" OFFSET " (lastPositive (offsetArgs calls))), r.2) := by
  have h := tailText_eq cm tscol calls
  dsimp only at h
  have h2 : (runCalls calls (Cons.initV2 {} cm tscol)).filter.offset =
      (lastPositive (offsetArgs calls)).getD 0 := by
    have := congrArg Prod.snd (runCalls_limOff calls (Cons.initV2 {} cm tscol))
    rw [offsets_fold _ _ hpage] at this
    exact this
  rw [filterSQL_eq, h, h2, clause_eq _ _ (fun n hn => lastPositive_pos hn)]

example : lastPositive [3, -1, 0] = some 3 ∧ lastPositive [3, 8, -2] = some 8 ∧
    lastPositive [0, -5] = none := by decide

/-! ## C07 -/

/-- C07: Limit(n), then Page(p), with no later Limit/Offset/Page call and no Limit in between:
LIMIT is n and OFFSET is n*(p-1), provided that fits in int64. -/
theorem C07_page (cm : List (Bytes × Column α)) (tscol : Bytes) (pre mid post : List (Call α))
    (n p : Int64) (hn : 0 < n) (hp : 0 < p)
    (hfit : n.toInt * (p.toInt - 1) < 2 ^ 63)
    (hmid : ∀ k, Call.limit k ∉ flatCalls mid)
    (hpost : ∀ k, Call.limit k ∉ flatCalls post ∧ Call.offset k ∉ flatCalls post ∧
      Call.page k ∉ flatCalls post) (pos : Nat) :
    let calls := pre ++ [.limit n] ++ mid ++ [.page p] ++ post
    filterSQL cm tscol calls pos = (countSQL cm tscol calls pos).map fun r =>
      (r.1 ++ (orderByText (ordering cm calls false) ++
        (b!" LIMIT " ++ Nat.toDigits 10 n.toInt.toNat) ++
        (if p = 1 then [] else b!" OFFSET " ++ Nat.toDigits 10 (n.toInt * (p.toInt - 1)).toNat)),
       r.2) := by
  intro calls
  have hlo := runCalls_limOff calls (Cons.initV2 {} cm tscol)
  have hflat : flatCalls calls =
      flatCalls pre ++ [.limit n] ++ flatCalls mid ++ [.page p] ++ flatCalls post := by
    simp [calls, flatCalls_append, flatCalls, Call.flat]
  rw [hflat] at hlo
  simp only [List.foldl_append, List.foldl_cons, List.foldl_nil] at hlo
  rw [fold_keep (cs := flatCalls post)] at hlo
  rotate_left
  · intro y hy lo
    have h1 := hpost
    cases y with
    | limit k => exact absurd hy (h1 k).1
    | offset k => exact absurd hy (h1 k).2.1
    | page k => exact absurd hy (h1 k).2.2
    | _ => rfl
  have hfst : ∀ lo : Int64 × Int64,
      ((flatCalls mid).foldl (fun lo y => y.limOff lo) (Call.limOff (α := α) (.limit n) lo)).1 = n := by
    intro lo
    rw [fold_keep_fst (fun y hy k e => hmid k (e ▸ hy))]
    simp only [Call.limOff]
    have : n > 0 := hn
    simp [this]
  generalize (flatCalls pre).foldl (fun lo y => y.limOff lo) (Cons.initV2 {} cm tscol).limOff = lo0 at hlo
  have hf := hfst lo0
  generalize (flatCalls mid).foldl (fun lo y => y.limOff lo) (Call.limOff (α := α) (.limit n) lo0) = lo1 at hlo hf
  have hn0 : (0:Int) < n.toInt := by simpa [Int64.lt_iff_toInt_lt] using hn
  have hp0 : (0:Int) < p.toInt := by simpa [Int64.lt_iff_toInt_lt] using hp
  have hlim : (runCalls calls (Cons.initV2 {} cm tscol)).filter.limit = n ∧
      (runCalls calls (Cons.initV2 {} cm tscol)).filter.offset = n * (p - 1) := by
    simp only [Call.limOff, hf] at hlo
    have hc : p > 0 ∧ n ≥ 0 := ⟨hp, Int64.le_of_lt hn⟩
    rw [if_pos hc] at hlo
    simp only [Cons.limOff, Prod.mk.injEq] at hlo
    exact hlo
  have hoffi : (n * (p - 1)).toInt = n.toInt * (p.toInt - 1) := by
    have h1 : (p - 1).toInt = p.toInt - 1 := by
      rw [Int64.toInt_sub]
      have : (1 : Int64).toInt = 1 := by decide
      rw [this]
      have := p.toInt_lt
      exact bmod_small _ (by omega) (by omega)
    rw [Int64.toInt_mul, h1]
    exact bmod_small _ (Int.mul_nonneg (by omega) (by omega)) hfit
  have htail := tailText_eq cm tscol calls
  dsimp only at htail
  rw [filterSQL_eq]
  congr 1
  funext r
  congr 2
  unfold tailText at htail ⊢
  have hob : (if (runCalls calls (Cons.initV2 {} cm tscol)).filter.orderby.length > 0 then
      b!" ORDER BY " ++ (runCalls calls (Cons.initV2 {} cm tscol)).filter.orderby else []) =
      orderByText (ordering cm calls false) := by
    have h1 : (runCalls calls (Cons.initV2 {} cm tscol)).filter.orderby =
        addItems [] (ordering cm calls false) := runCalls_orderby calls (Cons.initV2 {} cm tscol)
    rw [h1, orderBy_part]
  rw [hob, hlim.1, hlim.2]
  have hn' : n > 0 := hn
  rw [if_pos hn']
  congr 1
  by_cases h1 : p = 1
  · subst h1
    have : ¬ (n * (1 - 1) > 0) := by
      have : n * (1 - 1) = 0 := by rw [show (1 : Int64) - 1 = 0 by decide]; simp
      rw [this]; decide
    rw [if_neg this, if_pos rfl]
  · have hp2 : 1 < p.toInt := by
      rcases Int.lt_or_le 1 p.toInt with h | h
      · exact h
      · have : p.toInt = 1 := by omega
        exact absurd (Int64.toInt_inj.1 (by rw [this]; decide)) h1
    have : n * (p - 1) > 0 := by
      show 0 < n * (p - 1)
      rw [Int64.lt_iff_toInt_lt, hoffi]
      exact Int.mul_pos hn0 (by omega)
    rw [if_pos this, if_neg h1]
    simp only [formatPos, itoa, hoffi]

/-- C07: with limit n > 0 every row number lies in the window of exactly one page. -/
theorem C07_pages_partition (n : Nat) (hn : 0 < n) (row : Nat) :
    ∃ p, 0 < p ∧ (n * (p - 1) ≤ row ∧ row < n * (p - 1) + n) ∧
      ∀ q, 0 < q → n * (q - 1) ≤ row → row < n * (q - 1) + n → q = p := by
  refine ⟨row / n + 1, Nat.succ_pos _, ⟨?_, ?_⟩, ?_⟩
  · simp only [Nat.add_sub_cancel]; exact Nat.mul_div_le row n
  · simp only [Nat.add_sub_cancel]
    have := Nat.lt_div_mul_add hn (a := row)
    rw [Nat.mul_comm]; exact this
  · intro q hq h1 h2
    have : row / n = q - 1 := by
      rw [Nat.div_eq_iff hn, Nat.mul_comm]
      omega
    omega

/-- Page before Limit is silently lost: page 3 of 10 rows reads the first 10 rows. -/
theorem C07_not_page_before_limit :
    filterSQL (α := Nat) [] [] [.page 3, .limit 10] 0 = some (b!" LIMIT 10", []) := by decide

/-- An overflowing page silently reads from the start. -/
theorem C07_not_page_overflow :
    filterSQL (α := Nat) [] [] [.limit 4611686018427387904, .page 5] 0 =
      some (b!" LIMIT 4611686018427387904", []) := by decide

/-- C07 is not vacuous. -/
example : filterSQL (α := Nat) [] [] [.limit 10, .page 3] 0 =
    some (b!" LIMIT 10 OFFSET 20", []) := by decide

/-! ## C08 -/

/-- C08, effect: the ORDER BY clause is the earlier items followed by the mapped keys of the sort
string (specification `sortItems` over the comma separated items); nothing else changes. -/
theorem C08_sort_effect (cm : List (Bytes × Column α)) (tscol : Bytes) (calls : List (Call α))
    (s : Bytes) (pos : Nat)  :
    ∃ off : Bytes,
      (filterSQL cm tscol calls pos = (countSQL cm tscol calls pos).map fun r =>
        (r.1 ++ (orderByText (ordering cm calls false) ++
          clause b!" LIMIT " (lastPositive (limitArgs calls)) ++ off), r.2)) ∧
      (filterSQL cm tscol (calls ++ [.unmarshalSort s]) pos =
        (countSQL cm tscol calls pos).map fun r =>
        (r.1 ++ (orderByText (ordering cm calls false ++
            (sortItems cm (strictAfter calls false) (split ',' s)).1) ++
          clause b!" LIMIT " (lastPositive (limitArgs calls)) ++ off), r.2)) := by
  have h0 := tailText_eq cm tscol calls
  dsimp only at h0
  refine ⟨(if (runCalls calls (Cons.initV2 {} cm tscol)).filter.offset > 0 then
    b!" OFFSET " ++ formatPos (runCalls calls (Cons.initV2 {} cm tscol)).filter.offset else []),
    ?_, ?_⟩
  · rw [filterSQL_eq, h0]
  · have h1 := tailText_eq cm tscol (calls ++ [.unmarshalSort s])
    dsimp only at h1
    have hf := sort_frame (s.length + 1) s (runCalls calls (Cons.initV2 {} cm tscol))
    have hrun : runCalls (calls ++ [.unmarshalSort s]) (Cons.initV2 {} cm tscol) =
        (Cons.unmarshalSort (runCalls calls (Cons.initV2 {} cm tscol)) s).1 := by
      rw [runCalls_append]; rfl
    have hcount : countSQL cm tscol (calls ++ [.unmarshalSort s]) pos = countSQL cm tscol calls pos := by
      rw [countSQL_eq, countSQL_eq]
      have : segsOf cm tscol (calls ++ [.unmarshalSort s]) = segsOf cm tscol calls := by
        unfold segsOf
        rw [hrun]
        unfold Cons.unmarshalSort
        rw [hf.2.2.1]
      rw [this]
    have hord : ordering cm (calls ++ [.unmarshalSort s]) false = ordering cm calls false ++
        (sortItems cm (strictAfter calls false) (split ',' s)).1 := by
      rw [ordering_append]
      simp [ordering, Call.ordering]
    have hlim : limitArgs (calls ++ [.unmarshalSort s]) = limitArgs calls := by
      simp [limitArgs, flatCalls_append, flatCalls, Call.flat]
    rw [filterSQL_eq, hcount, h1, hord, hlim, hrun]
    unfold Cons.unmarshalSort
    rw [hf.2.2.2.2]

/-- C08, errors: no error unless strict; in strict mode the error is the first non-empty key that
has no entry in the column map. -/
theorem C08_sort_error (cm : List (Bytes × Column α)) (tscol : Bytes) (calls : List (Call α))
    (s : Bytes) :
    ((runCalls calls (Cons.initV2 {} cm tscol)).unmarshalSort s).2 =
      if strictAfter calls false then
        ((((split ',' s).map (fun i => (sortKey i).1)).filter (· ≠ [])).find?
          (fun k => (columnFor cm k).isNone)).map Err.unknownKey
      else none := by
  have hfr := runCalls_frame calls (Cons.initV2 {} cm tscol)
  unfold Cons.unmarshalSort
  rw [(sortLoop_eq _ _ _ (by omega)).2, sortItems_error, hfr.2.1, colmap_of_env hfr.1]
  rfl

/-- C08, columns: only names from the column map reach ORDER BY. -/
theorem C08_sort_columns (cm : List (Bytes × Column α)) (strict : Bool) (s : Bytes) :
    ∀ i ∈ (sortItems cm strict (split ',' s)).1, ∃ k cl, (k, cl) ∈ cm ∧ i.column = cl.name :=
  sortItems_columns _ _ _

example : filterSQL (α := Nat) [(b!"c", { name := b!"t.created" }), (b!"l", { name := b!"t.label", nullable := true })] []
    [.unmarshalSort b!"-c,,x,l"] 0 =
    some (b!" ORDER BY t.created DESC, t.label ASC NULLS LAST", []) := by decide

/-- `split` is the comma separation: pieces contain no separator and joining them restores the input. -/
theorem split_spec (sep : Char) (s : Bytes) :
    [sep].intercalate (split sep s) = s ∧ (∀ p ∈ split sep s, sep ∉ p) ∧ split sep s ≠ [] :=
  ⟨split_intercalate .., split_not_mem _ _, split_ne_nil _ _⟩

/-! ## C09 -/

/-- C09: after any calls and then any FQL token stream, the predicates added to the WHERE clause
are on columns of the column map only. -/
theorem C09_fql_vetted_columns (cm : List (Bytes × Column α)) (tscol : Bytes)
    (calls : List (Call α)) (ts : List (Tok α)) (fin : Option Err) :
    ∃ (segs : List (Seg α)) (new : List (Pred α)),
      preds segs = requested cm tscol calls false ++ new ∧
      (∀ p ∈ new, ∃ k cl, (k, cl) ∈ cm ∧ p.column = cl.name) ∧
      ∀ pos w ps, countSQL cm tscol (calls ++ [.unmarshalFQL ts fin]) pos = some (w, ps) →
        w = render (wherePieces segs) pos ∧ ps = holes (wherePieces segs) := by
  refine ⟨segsOf cm tscol (calls ++ [.unmarshalFQL ts fin]),
    fqlPreds cm (strictAfter calls false) ts, ?_, fqlPreds_columns _ _ _, ?_⟩
  · rw [segsOf_preds, requested_append]
    simp [requested, Call.requested]
  · intro pos w ps h
    rw [countSQL_eq] at h
    dsimp only at h
    split at h
    · simp at h; exact ⟨h.1.symm, h.2.symm⟩
    · simp at h

/-- C09: in strict mode the first rule with an unmapped key stops processing with its error. -/
theorem C09_fql_unknown_key (cm : List (Bytes × Column α)) (tscol : Bytes) (calls : List (Call α))
    (fin : Option Err) (pre post : List (Tok α)) (key : Bytes) (cmp : Cmp) (val : Option (Val α))
    (hs : strictAfter calls false = true) (hk : columnFor cm key = none)
    (hr : RulesRun cm true pre) :
    let c := runCalls calls (Cons.initV2 {} cm tscol)
    (c.fqlLoop fin (pre ++ .rule key cmp val :: post)).2 = some (.unknownKey key) := by
  have hfr := runCalls_frame calls (Cons.initV2 {} cm tscol)
  have hcm : (runCalls calls (Cons.initV2 {} cm tscol)).colmap = cm := colmap_of_env hfr.1
  apply fql_error
  · rw [hfr.2.1]; exact hs
  · rw [hcm]; exact hk
  · rw [hcm]; exact hr

example : filterSQL (α := Nat) [(b!"k", { name := b!"t.k" })] []
    [.unmarshalFQL [.rule b!"k" .gt (some (.other 3)), .rule b!"evil" .eq (some (.other 4)), .rule b!"k" .eq none] none] 0 =
    some (b!" WHERE t.k > $1 AND t.k IS NULL", [.val (.other 3)]) := by decide

/-! ## C10 -/

/-- C10: a grammatical token stream over mapped keys yields the clause of the same shape, and no
error beyond the tokenizer's own. -/
theorem C10_fql_shape (cm : List (Bytes × Column α)) (tscol : Bytes) (ts : List (Tok α))
    (segs : List (Seg α)) (h : TokExpr cm ts segs) (fin : Option Err) :
    BoolExpr segs ∧ (Cons.fqlLoop fin (Cons.initV2 {} cm tscol) ts).2 = fin ∧
    ∀ pos w ps, countSQL cm tscol [.unmarshalFQL ts fin] pos = some (w, ps) →
      w = render (wherePieces segs) pos ∧ ps = holes (wherePieces segs) := by
  obtain ⟨d, E, h1, h2, h3, h4⟩ := fql_expr h (Cons.initV2 {} cm tscol) rfl
  have h5 := h4 fin []
  rw [List.append_nil] at h5
  refine ⟨h3, by rw [h5]; rfl, ?_⟩
  intro pos w ps hh
  rw [countSQL_eq] at hh
  have : segsOf cm tscol [.unmarshalFQL ts fin] = segs := by
    simp only [segsOf, runCalls, Call.run, h5, Cons.fqlLoop]
    rw [h1.wh, ← h2]
    rfl
  rw [this] at hh
  dsimp only at hh
  split at hh
  · simp at hh; exact ⟨hh.1.symm, hh.2.symm⟩
  · simp at hh

/-- Non-strict mode with an unmapped key leaves the connective dangling. -/
theorem C10_not_fql_shape_unmapped :
    filterSQL (α := Nat) [(b!"k", { name := b!"t.k" })] []
      [.unmarshalFQL [.rule b!"x" .eq (some (.other 1)), .or, .rule b!"k" .eq (some (.other 2))] none] 0 =
      some (b!" WHERE  OR t.k = $1", [.val (.other 2)]) := by decide

example : TokExpr (α := Nat) [(b!"k", { name := b!"t.k" })]
    (.lparen :: ([.rule b!"k" .eq none] ++ .or :: [.rule b!"k" .gt (some (.other 2))]) ++ [.rparen])
    (.opn :: ([.pred ⟨b!"t.k", .is b!"IS NULL"⟩] ++ .or :: [.pred ⟨b!"t.k", .cmp b!">" (.other 2)⟩]) ++ [.cls]) := by
  refine .paren (.or (.rule ?_) (.rule ?_))
  · rfl
  · rfl

/-! ## C11 -/

/-- C11: the text-search query is the non-empty space separated terms of the trimmed input, each
suffixed with `:*`, joined with ` & `; it is empty iff the trimmed input is. -/
theorem C11_tsquery (s : Bytes) :
    toTSQuery s =
      (b!" & ").intercalate (((split ' ' (trimSpace s)).filter (· ≠ [])).map (· ++ b!":*")) ∧
    (toTSQuery s = [] ↔ trimSpace s = []) := by
  refine ⟨toTSQuery_eq s, ?_⟩
  constructor
  · intro h
    cases hs : trimSpace s with
    | nil => rfl
    | cons c cs =>
      exfalso
      have hc : c ≠ ' ' := by
        intro e
        have := head_trimSpace s c cs hs
        subst e
        simp [isSpace] at this
      obtain ⟨p, ps, hp⟩ := split_head_ne_nil ' ' c cs hc
      rw [toTSQuery_eq, tsQuery, terms, hs, hp] at h
      simp [intercalate_cons] at h
  · intro h
    rw [toTSQuery_eq, tsQuery, terms, h]
    simp [split]

/-- `trimSpace` removes exactly the leading and trailing white space. -/
theorem C11_trimSpace (s : Bytes) :
    ∃ l r, s = l ++ trimSpace s ++ r ∧ (∀ c ∈ l, isSpace c = true) ∧ (∀ c ∈ r, isSpace c = true) ∧
      (∀ c cs, trimSpace s = c :: cs → isSpace c = false) ∧
      (∀ c cs, trimSpace s = cs ++ [c] → isSpace c = false) := by
  refine ⟨s.takeWhile isSpace, ((trimLeft s).reverse.takeWhile isSpace).reverse, ?_, ?_, ?_, ?_, ?_⟩
  · have h1 := List.takeWhile_append_dropWhile (p := isSpace) (l := s)
    have h2 := List.takeWhile_append_dropWhile (p := isSpace) (l := (trimLeft s).reverse)
    have h3 := congrArg List.reverse h2
    rw [List.reverse_append, List.reverse_reverse] at h3
    rw [List.append_assoc]
    unfold trimSpace
    rw [show (trimLeft (trimLeft s).reverse) = (trimLeft s).reverse.dropWhile isSpace from rfl, h3]
    exact h1.symm
  · intro c hc
    exact (List.all_eq_true.1 (List.all_takeWhile (p := isSpace) (l := s))) c hc
  · intro c hc
    rw [List.mem_reverse] at hc
    exact (List.all_eq_true.1 (List.all_takeWhile (p := isSpace) (l := (trimLeft s).reverse))) c hc
  · intro c cs h
    exact head_trimSpace s c cs h
  · intro c cs h
    unfold trimSpace at h
    have h' := congrArg List.reverse h
    simp only [List.reverse_reverse, List.reverse_append, List.reverse_cons, List.reverse_nil,
      List.nil_append, List.singleton_append] at h'
    exact head_dropWhile isSpace _ c cs.reverse h'

/-- White space is what `unicode.IsSpace` accepts below U+0100. -/
theorem C11_isSpace (c : Char) :
    isSpace c = true ↔ c.toNat ∈ [0x20, 0x09, 0x0a, 0x0b, 0x0c, 0x0d, 0x85, 0xa0] := by
  have h : ∀ d : Char, c = d ↔ c.toNat = d.toNat :=
    fun d => ⟨fun h => by rw [h], fun h => Char.toNat_inj.1 h⟩
  simp only [isSpace, h, Bool.or_eq_true, decide_eq_true_eq, List.mem_cons, List.not_mem_nil]
  simp
  omega

example : toTSQuery b!"  foo  bar\t" = b!"foo:* & bar:*" := by decide

end Verif.Filter
