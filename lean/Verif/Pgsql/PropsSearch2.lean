import Verif.Pgsql.PropsSearch
/-
C75, continued: tsvector[], tsquery[], json[], xml[], single characters.
-/
namespace Verif.Pgsql

open Verif Verif.PgServer

/-! ### Lemmas: arrays written into a buffer of a computed size -/

theorem posValue_some {α : Type} (size : List α → Nat) (f : α → Bytes) (xs : List α)
    (h : xs ≠ [] → size xs = (joinWith b!"," (xs.map f)).length + 2) :
    posValue size f (some xs) = .text ('{' :: (joinWith b!"," (xs.map f) ++ ['}'])) := by
  cases xs with
  | nil => rfl
  | cons x xs =>
    rw [posValue, if_neg (by simp), arrBody_cons, setLast_append, Option.bind_some,
      fixedBuf_exact _ _ (by rw [h (by simp)]; simp)]
    simp [Val.ofOption]

theorem joinWith_map_length {α : Type} (f : α → Bytes) (xs : List α) (h : xs ≠ []) :
    (joinWith b!"," (xs.map f)).length = xs.length - 1 + (xs.map fun x => (f x).length).sum := by
  cases xs with
  | nil => exact absurd rfl h
  | cons x xs =>
    rw [List.map_cons, joinWith_length, ← List.map_cons (f := f), List.map_map]
    simp [Function.comp_def]

/-! ### tsvector[] -/

theorem tsVecElem_some (xs : List Bytes) :
    tsVecElem (some xs) = '"' :: (joinWith b!" " xs ++ ['"']) := by
  cases xs with
  | nil => rfl
  | cons x xs =>
    have := flatMap_sep ' ' id x xs
    simp only [id, List.map_id_fun] at this
    rw [tsVecElem, if_neg (by simp), this, ← List.cons_append, List.dropLast_concat]
    rfl

theorem tsVecElem_size (x : Option (List Bytes)) : tsVecElemSize x = (tsVecElem x).length := by
  cases x with
  | none => rfl
  | some xs =>
    cases xs with
    | nil => rfl
    | cons x xs =>
      rw [tsVecElem_some, tsVecElemSize, if_neg (by simp), foldl_len]
      simp only [List.length_cons, List.length_append, joinWith_length, List.length_nil]
      omega

theorem tsVecArrSize_eq (xss : List (Option (List Bytes))) (h : xss ≠ []) :
    tsVecArrSize xss = (joinWith b!"," (xss.map tsVecElem)).length + 2 := by
  rw [tsVecArrSize, foldl_len, joinWith_map_length _ _ h]
  rw [funext tsVecElem_size]; omega

/-- **C75** The text written for a tsvector[]: NULL, or the elements of the vector with a space
between them inside double quotes, nothing being escaped; the buffer has the right size. -/
theorem C75_arr_text (xss : List (Option (List Bytes))) :
    tsVecArrValue (some xss) = .text ('{' :: (joinWith b!"," (xss.map fun v =>
      match v with
      | none => b!"NULL"
      | some xs => '"' :: (joinWith b!" " xs ++ ['"'])) ++ ['}'])) := by
  rw [tsVecArrValue, posValue_some _ _ _ (tsVecArrSize_eq xss)]
  congr 3
  refine congrArg _ (List.map_congr_left fun v _ => ?_)
  cases v with
  | none => rfl
  | some xs => exact tsVecElem_some xs

/-- No quote and no space in the elements of the vectors. -/
def CleanVec (v : Option (List Bytes)) : Prop := ∀ xs, v = some xs → ∀ x ∈ xs, '"' ∉ x ∧ ' ' ∉ x

/-- What becomes of a tsvector[] that is written and scanned: a vector that is one empty element
becomes an empty one, and an empty vector appears after every NULL that is not the last. -/
def readBack : List (Option (List Bytes)) → List (Option (List Bytes))
  | [] => []
  | none :: [] => [none]
  | none :: r => none :: some [] :: readBack r
  | some xs :: r => (if xs = [[]] then some [] else some xs) :: readBack r

theorem vecArrLoop_null (t : Bytes) : vecArrLoop 0 (b!"NULL" ++ t) = none :: vecArrLoop 0 t := by
  simp [vecArrLoop]

theorem vecArrLoop_comma (t : Bytes) : vecArrLoop 0 (',' :: t) = some [[]] :: vecArrLoop 0 t := by
  rw [vecArrLoop, if_neg (by decide), if_neg (by decide)]
  simp [vecUnquoted]

theorem vecArrLoop_words (xs : List Bytes) (h : ∀ x ∈ xs, '"' ∉ x ∧ ' ' ∉ x) (t : Bytes) :
    vecArrLoop 0 (tsVecElem (some xs) ++ t) =
      some (if xs = [] then [[]] else xs) :: vecArrLoop 0 (t.drop 1) := by
  rw [tsVecElem_some]
  have e : '"' :: (joinWith b!" " xs ++ ['"']) ++ t = '"' :: (joinWith b!" " xs ++ '"' :: t) := by
    simp
  rw [e, vecArrLoop, if_pos rfl]
  cases xs with
  | nil => simp [joinWith, vecQuoted, vecArrLoop_skip 2]
  | cons x xs =>
    rw [vecQuoted_join x xs t 0 h, vecArrLoop_skip, if_neg (by simp)]
    congr 2
    simp only [Nat.zero_add, List.drop_append]
    rw [List.drop_eq_nil_of_le (by omega)]
    simp

theorem tsVecNorm_eq (xs : List Bytes) :
    tsVecNorm (some (if xs = [] then [[]] else xs)) = if xs = [[]] then some [] else some xs := by
  cases xs with
  | nil => rfl
  | cons x xs =>
    cases xs with
    | nil => cases x <;> simp [tsVecNorm]
    | cons y ys => simp [tsVecNorm]

theorem vecArrLoop_readBack (xss : List (Option (List Bytes))) (h : ∀ v ∈ xss, CleanVec v) :
    (vecArrLoop 0 (joinWith b!"," (xss.map tsVecElem))).map tsVecNorm = readBack xss := by
  induction xss with
  | nil => rfl
  | cons v xss ih =>
    have ih' := ih (fun w hw => h w (by simp [hw]))
    cases xss with
    | nil =>
      cases v with
      | none => decide
      | some xs =>
        have := vecArrLoop_words xs (h _ (by simp) xs rfl) []
        rw [List.append_nil] at this
        rw [List.map_cons, List.map_nil, joinWith, this, readBack, ← tsVecNorm_eq xs]
        rfl
    | cons w ws =>
      simp only [List.map_cons] at ih' ⊢
      rw [joinWith, List.append_assoc, List.singleton_append]
      cases v with
      | none =>
        rw [show tsVecElem none = b!"NULL" from rfl, vecArrLoop_null, vecArrLoop_comma]
        simp only [List.map_cons, ih']
        rw [readBack]
        · rfl
        · simp
      | some xs =>
        rw [vecArrLoop_words xs (h _ (by simp) xs rfl), List.drop_one, List.tail_cons, List.map_cons,
          ih', tsVecNorm_eq, readBack]

theorem tsVecArrScan_lit (xss : List (Option (List Bytes))) (h : ∀ v ∈ xss, CleanVec v)
    (d : Option (List (Option (List Bytes)))) :
    tsVecArrScan d (some ('{' :: (joinWith b!"," (xss.map tsVecElem) ++ ['}']))) =
      .ok (some (readBack xss)) := by
  rw [tsVecArrScan, scanReset, parseVectorArray, if_neg (by simp), dropEnds_wrap]
  simp only [Option.bind_eq_bind, Option.bind_some, pure, ofParse, Res.map,
    vecArrLoop_readBack xss h]

/-- **C75** What is scanned after a tsvector[] without quotes and spaces in its elements was
written. -/
theorem C75_arr_read (xss : List (Option (List Bytes))) (h : ∀ v ∈ xss, CleanVec v)
    (d : Option (List (Option (List Bytes)))) :
    (tsVecArrValue (some xss)).scan (tsVecArrScan d) = .ok (some (readBack xss)) := by
  rw [tsVecArrValue, posValue_some _ _ _ (tsVecArrSize_eq xss), Val.scan]
  exact tsVecArrScan_lit xss h d

theorem readBack_length (xss : List (Option (List Bytes))) :
    (readBack xss).length = xss.length + xss.dropLast.count none := by
  induction xss with
  | nil => rfl
  | cons v xss ih =>
    cases v with
    | none =>
      cases xss with
      | nil => rfl
      | cons w ws =>
        rw [readBack, List.length_cons, List.length_cons, ih, List.dropLast_cons_cons, List.count_cons_self]
        · simp only [List.length_cons]; omega
        · simp
    | some xs =>
      rw [readBack, List.length_cons, ih]
      cases xss with
      | nil => rfl
      | cons w ws => rw [List.dropLast_cons_cons, List.count_cons_of_ne (by simp)]; simp only [List.length_cons]; omega

theorem readBack_id (xss : List (Option (List Bytes))) :
    readBack xss = xss ↔ none ∉ xss.dropLast ∧ some [[]] ∉ xss := by
  constructor
  · intro h
    have hl := readBack_length xss
    rw [h] at hl
    have h1 : none ∉ xss.dropLast := List.count_eq_zero.mp (by omega)
    refine ⟨h1, ?_⟩
    clear hl
    induction xss with
    | nil => simp
    | cons v xss ih =>
      cases v with
      | none =>
        cases xss with
        | nil => simp
        | cons w ws => simp at h1
      | some xs =>
        rw [readBack] at h
        obtain ⟨h2, h3⟩ := List.cons.inj h
        have h4 : none ∉ xss.dropLast := by
          cases xss with
          | nil => simp
          | cons w ws => rw [List.dropLast_cons_cons] at h1; exact fun hm => h1 (by simp [hm])
        simp only [List.mem_cons, not_or]
        refine ⟨?_, ih h3 h4⟩
        intro e
        cases e
        simp at h2
  · rintro ⟨h1, h2⟩
    induction xss with
    | nil => rfl
    | cons v xss ih =>
      simp only [List.mem_cons, not_or] at h2
      have ih' := fun hm => ih hm h2.2
      cases v with
      | none =>
        cases xss with
        | nil => rfl
        | cons w ws => simp at h1
      | some xs =>
        rw [readBack, ih', if_neg (fun e => h2.1 (by rw [e]))]
        cases xss with
        | nil => simp
        | cons w ws => rw [List.dropLast_cons_cons] at h1; exact fun hm => h1 (by simp [hm])

/-- **C75** A written tsvector[] without quotes and spaces in its elements is scanned as the same
value exactly if NULL occurs only at the end and no vector is one empty element. -/
theorem C75_arr_round_trip (xss : List (Option (List Bytes))) (h : ∀ v ∈ xss, CleanVec v)
    (d : Option (List (Option (List Bytes)))) :
    (tsVecArrValue (some xss)).scan (tsVecArrScan d) = .ok (some xss) ↔
      none ∉ xss.dropLast ∧ some [[]] ∉ xss := by
  rw [C75_arr_read xss h d, ← readBack_id]
  simp

/-- **C75** A NULL that is not the last element brings in an empty vector; a quote ends the
vector; a space splits an element. -/
theorem C75_not_arr_round_trip :
    (tsVecArrValue (some [none, some [b!"cat"]])).scan (tsVecArrScan none) =
      .ok (some [none, some [], some [b!"cat"]]) ∧
    (tsVecArrValue (some [some [b!"a\"b", b!"c"]])).scan (tsVecArrScan none) ≠
      .ok (some [some [b!"a\"b", b!"c"]]) ∧
    (tsVecArrValue (some [some [b!"a b"]])).scan (tsVecArrScan none) =
      .ok (some [some [b!"a", b!"b"]]) :=
  ⟨by decide +kernel, by decide +kernel, by decide +kernel⟩

/-- **C75** The server reads every element of the literal as the text of the vector (C75_vector_text), if no
element has a double quote or a backslash in it. -/
theorem C75_arr_server_in_partial (xss : List (Option (List Bytes)))
    (h : ∀ xs, some xs ∈ xss → ∀ x ∈ xs, '"' ∉ x ∧ '\\' ∉ x) :
    ∃ lit, tsVecArrValue (some xss) = .text lit ∧
      arrayIn lit = some (xss.map fun v => v.map (joinWith b!" ")) := by
  refine ⟨_, posValue_some _ _ _ (tsVecArrSize_eq xss), ?_⟩
  refine arrayIn_lit tsVecElem _ xss fun v hv => ?_
  cases v with
  | none => exact readsAs_null
  | some xs =>
    have hm : ∀ c, c ∉ b!" " → (∀ x ∈ xs, c ∉ x) → c ∉ joinWith b!" " xs := by
      intro c h1 h2 hc
      rcases joinWith_mem _ _ _ hc with hc | ⟨x, hx, hc⟩
      · exact h1 hc
      · exact h2 x hx hc
    have := readsAs_wrapped (joinWith b!" " xs)
      (hm _ (by decide) fun x hx => (h xs hv x hx).1) (hm _ (by decide) fun x hx => (h xs hv x hx).2)
    rw [tsVecElem_some]
    simpa using this

/-- **C75** With a double quote in an element the literal is malformed, with a backslash it is
another value. -/
theorem C75_not_arr_server_in :
    (∃ lit, tsVecArrValue (some [some [b!"a\"b"]]) = .text lit ∧ arrayIn lit = none) ∧
    (∃ lit, tsVecArrValue (some [some [b!"a\\\\b"]]) = .text lit ∧
      arrayIn lit = some [some b!"a\\b"]) :=
  ⟨⟨_, rfl, by decide +kernel⟩, ⟨_, rfl, by decide +kernel⟩⟩

theorem lexeme_char (e : Lexeme) (c : Char) (h : c ∈ e.out) :
    c ∈ e.word ∨ c = '\'' ∨ c = ':' ∨ c = ',' ∨ c.isDigit = true ∨ c = 'A' ∨ c = 'B' ∨ c = 'C' := by
  rw [Lexeme.out] at h
  rcases List.mem_append.mp h with h | h
  · rcases List.mem_append.mp h with h | h
    · rcases List.mem_cons.mp h with h | h
      · exact .inr (.inl h)
      · obtain ⟨d, hd, h⟩ := List.mem_flatMap.mp h
        refine .inl ?_
        split at h
        · have : c = d := by simpa using h
          exact this ▸ hd
        · have : c = d := by simpa using h
          exact this ▸ hd
    · exact .inr (.inl (by simpa using h))
  · split at h
    · simp at h
    · rcases List.mem_cons.mp h with h | h
      · exact .inr (.inr (.inl h))
      · rcases joinWith_mem _ _ _ h with h | ⟨x, hx, h⟩
        · exact .inr (.inr (.inr (.inl (by simpa using h))))
        · obtain ⟨⟨n, w⟩, -, rfl⟩ := List.mem_map.mp hx
          rcases List.mem_append.mp h with h | h
          · exact .inr (.inr (.inr (.inr (.inl
              (Nat.isDigit_of_mem_toDigits (by decide) (by decide) h)))))
          · cases w <;> simp [Weight.out] at h <;> simp [h]

theorem lexeme_clean (e : Lexeme) (c : Char) (hc : c = '"' ∨ c = '\\' ∨ c = ' ') (h : c ∉ e.word) :
    c ∉ e.out := by
  intro hm
  rcases lexeme_char e c hm with h' | h'
  · exact h h'
  · rcases hc with rfl | rfl | rfl <;> revert h' <;> decide

theorem elemOut_vector (v : Option (List Lexeme))
    (h : ∀ es, v = some es → es.length ≠ 1 ∧ ∀ e ∈ es, '"' ∉ e.word ∧ '\\' ∉ e.word) :
    elemOut (v.map tsvectorOut) = tsVecElem (v.map fun es => es.map Lexeme.out) := by
  cases v with
  | none => rfl
  | some es =>
    obtain ⟨hl, hc⟩ := h es rfl
    rw [Option.map_some, Option.map_some, tsVecElem_some, elemOut, if_pos, quoteOut_eq, escWith_none]
    · rfl
    · intro c hm
      rw [decide_eq_false_iff_not]
      intro hq
      rcases joinWith_mem _ _ _ hm with hm | ⟨x, hx, hm⟩
      · revert hq; rw [List.mem_singleton.mp hm]; decide
      · obtain ⟨e, he, rfl⟩ := List.mem_map.mp hx
        rcases hq with rfl | rfl
        · exact lexeme_clean e _ (by simp) (hc e he).1 hm
        · exact lexeme_clean e _ (by simp) (hc e he).2 hm
    · match es, hl with
      | [], _ => rfl
      | [_], hl => exact absurd rfl hl
      | e1 :: e2 :: r, _ =>
        rw [needsQuote, Bool.or_eq_true]
        refine .inr (List.any_eq_true.2 ⟨' ', ?_, by decide⟩)
        simp [tsvectorOut, joinWith]

/-- **C75** The server's text of a tsvector[] is scanned vector by vector and lexeme by lexeme if
no vector is a single lexeme, NULL occurs only at the end, and no word has a space, a double quote
or a backslash in it. -/
theorem C75_arr_server_out_partial (vs : List (Option (List Lexeme)))
    (h : ∀ es, some es ∈ vs → es.length ≠ 1 ∧
      ∀ e ∈ es, '"' ∉ e.word ∧ '\\' ∉ e.word ∧ ' ' ∉ e.word)
    (hn : none ∉ vs.dropLast) (d : Option (List (Option (List Bytes)))) :
    tsVecArrScan d (some (arrayOut (vs.map fun v => v.map tsvectorOut))) =
      .ok (some (vs.map fun v => v.map fun es => es.map Lexeme.out)) := by
  have e : (vs.map fun v => v.map tsvectorOut).map elemOut =
      (vs.map fun v => v.map fun es => es.map Lexeme.out).map tsVecElem := by
    rw [List.map_map, List.map_map]
    refine List.map_congr_left fun v hv => elemOut_vector v ?_
    rintro es rfl
    exact ⟨(h es hv).1, fun x hx => ⟨((h es hv).2 x hx).1, ((h es hv).2 x hx).2.1⟩⟩
  rw [arrayOut, e, List.cons_append, tsVecArrScan_lit]
  · congr 2
    rw [readBack_id]
    constructor
    · rw [← List.map_dropLast]
      intro hm
      obtain ⟨v, hv, he⟩ := List.mem_map.mp hm
      cases v with
      | none => exact hn hv
      | some es => simp at he
    · intro hm
      obtain ⟨v, hv, he⟩ := List.mem_map.mp hm
      cases v with
      | none => simp at he
      | some es =>
        have := (h es hv).1
        simp only [Option.map_some, Option.some.injEq] at he
        have hl := congrArg List.length he
        simp at hl
        exact this hl
  · intro v hv xs hxs x hx
    obtain ⟨w, hw, rfl⟩ := List.mem_map.mp hv
    cases w with
    | none => simp at hxs
    | some es =>
      simp only [Option.map_some, Option.some.injEq] at hxs
      subst hxs
      obtain ⟨e, he, rfl⟩ := List.mem_map.mp hx
      exact ⟨lexeme_clean e _ (by simp) ((h es hw).2 e he).1,
        lexeme_clean e _ (by simp) ((h es hw).2 e he).2.2⟩

/-- **C75** A last vector of one lexeme, which the server does not put in quotes, is scanned as
many vectors: every end of its text. -/
theorem C75_not_arr_server_out : ∃ vs : List (Option (List Lexeme)), vs.length = 1 ∧
    arrayOut (vs.map fun v => v.map tsvectorOut) = b!"{'ox'}" ∧
    tsVecArrScan none (some b!"{'ox'}") =
      .ok (some [some [b!"'ox'"], some [b!"ox'"], some [b!"x'"], some [b!"'"]]) :=
  ⟨[some [⟨b!"ox", []⟩]], rfl, by decide +kernel, by decide +kernel⟩

example : tsVecArrScan none (some (arrayOut ([some [⟨b!"cat", [(3, .a)]⟩, ⟨b!"dog", []⟩], some [], none].map
      fun v => v.map tsvectorOut))) =
      .ok (some [some [b!"'cat':3A", b!"'dog'"], some [], none]) ∧
    tsVecArrValue (some [some [b!"a", b!"b"], some [], none, some [[]]]) =
      .text b!"{\"a b\",\"\",NULL,\"\"}" := by decide +kernel

end Verif.Pgsql
