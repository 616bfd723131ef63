import Verif.Pgsql.Lemmas6
import Verif.Pgsql.PropsScalar
/-
Properties C18, C25 and C26: integer arrays, int2vector, int2vector[], integer ranges.
-/
namespace Verif.Pgsql

open Verif Verif.PgServer

theorem mapRes_ok {α β : Type} (f : α → SR β) (xs : List α) (ys : List β)
    (h : mapRes f xs = .ok ys) : xs.map f = ys.map .ok := by
  induction xs generalizing ys with
  | nil => cases h; rfl
  | cons x xs ih =>
    rw [mapRes] at h
    cases hx : f x with
    | ok b =>
      rw [hx, Res.bind_ok] at h
      cases hm : mapRes f xs with
      | ok bs =>
        rw [hm, Res.map_ok] at h
        cases h
        rw [List.map_cons, List.map_cons, hx, ih bs hm]
      | err _ => rw [hm] at h; cases h
      | panic => rw [hm] at h; cases h
    | err _ => rw [hx] at h; cases h
    | panic => rw [hx] at h; cases h

theorem mapRes_err {α β : Type} (f : α → SR β) (xs : List α) (hp : ∀ x ∈ xs, f x ≠ .panic)
    (h : ∃ x ∈ xs, ∀ b, f x ≠ .ok b) : ∃ er, mapRes f xs = .err er := by
  induction xs with
  | nil => obtain ⟨x, hx, -⟩ := h; cases hx
  | cons x xs ih =>
    rw [mapRes]
    cases hx : f x with
    | err er => exact ⟨er, rfl⟩
    | panic => exact absurd hx (hp x (by simp))
    | ok b =>
      obtain ⟨y, hy, hb⟩ := h
      rcases List.mem_cons.mp hy with rfl | hy
      · exact absurd hx (hb b)
      · obtain ⟨er, he⟩ := ih (fun z hz => hp z (by simp [hz])) ⟨y, hy, hb⟩
        exact ⟨er, by rw [he]; rfl⟩

/-- The scanner loses nothing: whatever the PostgreSQL type and the destination hold. -/
theorem elem_back (e : IntScan) (he : e ∈ intScans) (hn : e.name ∉ narrow) (v : Int)
    (h1 : e.pg.Holds v) (h2 : e.dest.Holds v) : e.elem (fmtInt 10 v) = .ok v := by
  have hc : e.complete = true := by
    cases hc : e.complete with
    | true => rfl
    | false => exact absurd ((table_complete e he).mp hc) hn
  rw [elem_fmtInt e v (complete_lets e hc v h1 h2), num_conv_holds _ _ h2]

theorem elem_sound (e : IntScan) (he : e ∈ intScans) (hw : e.name ∉ wrapping) (s : Bytes) (v : Int)
    (h : e.elem s = .ok v) : intIn s = some v ∧ e.dest.Holds v := by
  have hc : e.fits = true := by
    cases hc : e.fits with
    | true => rfl
    | false => exact absurd ((table_fits e he).mp hc) hw
  obtain ⟨w, h1, h2, rfl⟩ := elem_ok e s v h
  have h3 := fits_holds e hc w h2
  rw [num_conv_holds _ _ h3]
  exact ⟨h1, h3⟩

theorem fmtInt_comma (v : Int) : ',' ∉ fmtInt 10 v := fmtInt_free v ',' (by decide) (by decide)

theorem map_fmtInt_ne (xs : List Int) : xs.map (fmtInt 10) ≠ [[]] := by
  intro h
  have : [] ∈ xs.map (fmtInt 10) := by rw [h]; simp
  obtain ⟨x, -, hx⟩ := List.mem_map.mp this
  exact fmtInt_ne_nil x hx

/-! ### C18: integer arrays -/

/-- C18: for every array scanner but the one in `narrow`, the literal produced from any slice of
numbers that both types hold is scanned back to that slice, whatever the destination held. -/
theorem C18_round_trip (e : IntScan) (he : e ∈ intScans) (hn : e.name ≠ "int8ArrayToUintSlice")
    (hs : e.shape = .comma) (v d : Option (List Int))
    (h : ∀ xs, v = some xs → ∀ x ∈ xs, e.pg.Holds x ∧ e.dest.Holds x) :
    intArrScan e d (intArrValue v) = .ok v := by
  have hn' : e.name ∉ narrow := by
    have : ∀ e ∈ intScans, e.shape = .comma → e.name ∈ narrow → e.name = "int8ArrayToUintSlice" := by
      decide +kernel
    exact fun hm => hn (this e he hs hm)
  cases v with
  | none => rfl
  | some xs =>
    rw [intArrValue, arrValue_some, intArrScan, scanReset, comma_scan e.elem (fmtInt 10) id xs]
    · simp
    · exact fun x _ => fmtInt_comma x
    · exact fun x _ => fmtInt_ne_nil x
    · exact fun x hx => elem_back e he hn' x (h xs rfl x hx).1 (h xs rfl x hx).2

/-- C18: no wrapping. For every array scanner but the six in `wrapping`, an accepted text consists of
decimal numbers that are the ones stored, and they are numbers of the destination type. -/
theorem C18_no_wrap_partial (e : IntScan) (he : e ∈ intScans) (hw : e.name ∉ wrapping) (b : Bytes)
    (d : Option (List Int)) (r : Option (List Int)) (h : intArrScan e d (some b) = .ok r) :
    ∃ elems ys, parseCommaArray b = some elems ∧ r = some ys ∧ elems.map intIn = ys.map some ∧
      ∀ y ∈ ys, e.dest.Holds y := by
  rw [intArrScan, scanReset] at h
  cases hp : parseCommaArray b with
  | none => rw [hp] at h; cases h
  | some elems =>
    rw [hp] at h
    simp only [ofParse, Res.bind_ok] at h
    cases hm : mapRes e.elem elems with
    | err _ => rw [hm] at h; cases h
    | panic => rw [hm] at h; cases h
    | ok ys =>
      rw [hm] at h
      cases h
      have h2 := mapRes_ok _ _ _ hm
      refine ⟨elems, ys, rfl, rfl, ?_, ?_⟩
      · clear hm hp
        induction elems generalizing ys with
        | nil => cases ys with
          | nil => rfl
          | cons _ _ => cases h2
        | cons s ss ih =>
          cases ys with
          | nil => cases h2
          | cons y ys =>
            simp only [List.map_cons, List.cons.injEq] at h2 ⊢
            exact ⟨(elem_sound e he hw s y h2.1).1, ih ys h2.2⟩
      · intro y hy
        have : Res.ok y ∈ elems.map e.elem := by rw [h2]; exact List.mem_map_of_mem hy
        obtain ⟨s, -, hs⟩ := List.mem_map.mp this
        exact (elem_sound e he hw s y hs).2

/-- C18: a number the destination does not hold is an error, wherever it is in the array. -/
theorem C18_out_of_range_partial (e : IntScan) (he : e ∈ intScans) (hw : e.name ∉ wrapping)
    (xs : List Int) (d : Option (List Int)) (h : ∃ x ∈ xs, ¬ e.dest.Holds x) :
    ∃ er, intArrScan e d (intArrValue (some xs)) = .err er := by
  rw [intArrValue, arrValue_some, intArrScan, scanReset, parseCommaArray_lit]
  · simp only [ofParse, Res.bind_ok]
    obtain ⟨er, hm⟩ := mapRes_err e.elem (xs.map (fmtInt 10)) (fun x _ => elem_no_panic e x) (by
      obtain ⟨x, hx, hn⟩ := h
      refine ⟨fmtInt 10 x, List.mem_map_of_mem hx, fun b hb => hn ?_⟩
      have := elem_sound e he hw _ _ hb
      rw [intIn_fmtInt] at this
      cases this.1
      exact this.2)
    exact ⟨er, by rw [hm]; rfl⟩
  · intro y hy
    obtain ⟨x, -, rfl⟩ := List.mem_map.mp hy
    exact fmtInt_comma x
  · exact map_fmtInt_ne xs

/-- C18 fails for the six numeric[] scanners in `wrapping`: each of them stores a wrapped number for
some text. -/
theorem C18_not_numeric : ∀ e ∈ intScans, e.name ∈ wrapping →
    ∃ x y, e.elem (fmtInt 10 x) = .ok y ∧ y ≠ x ∧ ¬ e.dest.Holds x := by
  have h : ∀ e ∈ intScans, e.name ∈ wrapping →
      e.elem (fmtInt 10 (2 ^ 32 + 300)) = .ok (e.dest.conv (2 ^ 32 + 300)) ∧
      e.dest.conv (2 ^ 32 + 300) ≠ 2 ^ 32 + 300 ∧ ¬ e.dest.Holds (2 ^ 32 + 300) := by
    decide +kernel
  intro e he hw
  exact ⟨_, _, (h e he hw).1, (h e he hw).2.1, (h e he hw).2.2⟩

/-- C18 fails for `int8ArrayToUintSlice`: it turns down 2^32, which the column and the destination
hold. -/
theorem C18_not_narrow : ∃ e ∈ intScans, e.name = "int8ArrayToUintSlice" ∧
    e.pg.Holds (2 ^ 32) ∧ e.dest.Holds (2 ^ 32) ∧
    ∀ d, intArrScan e d (intArrValue (some [2 ^ 32])) = .err .range :=
  ⟨⟨"int8ArrayToUintSlice", .int8, .comma, false, 32, .int .uint⟩, by decide +kernel, rfl,
    by decide, by decide, fun _ => rfl⟩

theorem fmtInt_plain (v : Int) : Plain (fmtInt 10 v) := by
  intro c hc
  have hd : ∀ c, isDig 10 c = true ∨ c = '-' → isSpace c = false ∧ c ≠ '"' ∧ c ≠ '\\' ∧ c ≠ '{' ∧
      c ≠ '}' ∧ c ≠ ',' := by
    intro c hc
    have h0 : ('0' : Char).toNat = 48 := rfl
    simp only [isDig, Bool.and_eq_true, decide_eq_true_eq, h0] at hc
    rcases hc with hc | rfl
    · refine ⟨?_, ?_, ?_, ?_, ?_, ?_⟩
      · cases hs : isSpace c with
        | false => rfl
        | true =>
          exfalso
          simp only [isSpace, Bool.or_eq_true, decide_eq_true_eq] at hs
          rcases hs with ((((rfl | rfl) | rfl) | rfl) | rfl) | rfl <;> revert hc <;> decide
      all_goals rintro rfl; revert hc; decide
    · decide
  exact hd c (fmtInt_chars v c hc)

theorem isNull_fmtInt (v : Int) : isNull (fmtInt 10 v) = false := by
  cases hn : isNull (fmtInt 10 v) with
  | false => rfl
  | true =>
    exfalso
    have hl : (fmtInt 10 v).map lower = b!"null" := by simpa [isNull] using hn
    have hm : 'u' ∈ (fmtInt 10 v).map lower := by rw [hl]; decide
    obtain ⟨c, hc, hu⟩ := List.mem_map.mp hm
    have h0 : ('0' : Char).toNat = 48 := rfl
    have hA : ('A' : Char).toNat = 65 := rfl
    rcases fmtInt_chars v c hc with h | rfl
    · simp only [isDig, Bool.and_eq_true, decide_eq_true_eq, h0] at h
      rw [lower, if_neg (by omega)] at hu
      subst hu
      revert h; decide
    · revert hu; decide

theorem fmtInt_bare (v : Int) : bareElem (fmtInt 10 v) = some (fmtInt 10 v) := by
  rw [bareElem, trimEnd_plain _ (fmtInt_plain v), if_neg (by simp [isNull_fmtInt])]

/-- C18: the server reads the literal as the numbers. -/
theorem C18_server_in (xs : List Int) : ∃ lit, intArrValue (some xs) = some lit ∧
    arrayIn lit = some (xs.map fun x => some (fmtInt 10 x)) ∧
    ∀ x ∈ xs, intIn (fmtInt 10 x) = some x :=
  ⟨_, arrValue_some _ _, arrayIn_lit _ _ xs (fun x _ =>
    readsAs_plain _ (fmtInt_plain x) (fmtInt_ne_nil x) _ (fmtInt_bare x)), fun x _ => intIn_fmtInt x⟩

theorem needsQuote_fmtInt (x : Int) : needsQuote (fmtInt 10 x) = false := by
  have h1 : (fmtInt 10 x).isEmpty = false := by simp [fmtInt_ne_nil]
  rw [needsQuote, h1, isNull_fmtInt]
  simp only [Bool.false_or, List.any_eq_false]
  intro c hc
  obtain ⟨h1, h2, h3, h4, h5, h6⟩ := fmtInt_plain x c hc
  simp [h1, h2, h3, h4, h5, h6]

theorem elemOut_intOut (x : Int) : elemOut (some (intOut x)) = fmtInt 10 x := by
  rw [← fmtInt_eq, elemOut, if_neg (by simp [needsQuote_fmtInt])]

/-- C18: what the server sends for an array of numbers without NULL is the literal the valuer
produces, so it is scanned to the numbers (`C18_round_trip`). -/
theorem C18_server_out (xs : List Int) :
    intArrValue (some xs) = some (arrayOut (xs.map fun x => some (intOut x))) := by
  rw [intArrValue, arrValue_some, arrayOut, List.map_map]
  congr 3
  rw [List.map_congr_left (fun x _ => (elemOut_intOut x).symm)]
  simp [Function.comp_def]

theorem elem_null (e : IntScan) : e.elem b!"NULL" = .err .syntax := by
  unfold IntScan.elem
  split <;> rfl

/-- C18: an array the server sends with a NULL in it is an error for every integer array scanner. -/
theorem C18_null_elem (e : IntScan) (xs : List (Option Int)) (h : none ∈ xs)
    (d : Option (List Int)) :
    ∃ er, intArrScan e d (some (arrayOut (xs.map (·.map intOut)))) = .err er := by
  have hc : ∀ x : Option Int, ',' ∉ elemOut (x.map intOut) ∧ elemOut (x.map intOut) ≠ [] := by
    intro x
    cases x with
    | none => decide
    | some x =>
      rw [Option.map_some, elemOut_intOut]
      exact ⟨fmtInt_comma x, fmtInt_ne_nil x⟩
  rw [intArrScan, scanReset, arrayOut, List.cons_append, parseCommaArray_lit]
  · simp only [ofParse, Res.bind_ok, List.map_map]
    obtain ⟨er, hm⟩ := mapRes_err e.elem (xs.map (elemOut ∘ fun x => x.map intOut))
      (fun x _ => elem_no_panic e x) ⟨b!"NULL", List.mem_map.mpr ⟨none, h, rfl⟩, by
        intro b hb; rw [elem_null] at hb; cases hb⟩
    exact ⟨er, by rw [hm]; rfl⟩
  · intro y hy
    rw [List.map_map] at hy
    obtain ⟨x, -, rfl⟩ := List.mem_map.mp hy
    exact (hc x).1
  · intro h
    have : [] ∈ (xs.map (·.map intOut)).map elemOut := by rw [h]; simp
    rw [List.map_map] at this
    obtain ⟨x, -, hx⟩ := List.mem_map.mp this
    exact (hc x).2 hx

example : intScans.length = 142 := by decide +kernel
example : (intScans.filter fun e => e.shape = .comma ∧ e.name ∉ narrow).length = 45 := by
  decide +kernel
example : intArrValue (some [12, -7, 0]) = some b!"{12,-7,0}" := by decide
example : intArrScan ⟨"int2ArrayToInt8Slice", .int2, .comma, true, 8, .int .int8⟩ none
    (some b!"{12,-128}") = .ok (some [12, -128]) := by decide
example : intArrScan ⟨"int2ArrayToInt8Slice", .int2, .comma, true, 8, .int .int8⟩ none
    (some b!"{12,128}") = .err .range := by decide
example : intArrScan ⟨"numericArrayToInt8Slice", .numeric, .comma, true, 64, .int .int8⟩ none
    (some b!"{300}") = .ok (some [44]) := by decide

/-! ### C25: int2vector and int2vector[] -/

theorem flatMap_sep {α : Type} (sep : Char) (f : α → Bytes) (x : α) (xs : List α) :
    (x :: xs).flatMap (fun x => f x ++ [sep]) = joinWith [sep] ((x :: xs).map f) ++ [sep] := by
  induction xs generalizing x with
  | nil => simp [joinWith]
  | cons y ys ih =>
    rw [List.flatMap_cons, ih y]
    simp [joinWith]

theorem vecValue_some (xs : List Int) :
    vecValue (some xs) = some (joinWith b!" " (xs.map (fmtInt 10))) := by
  cases xs with
  | nil => rfl
  | cons x xs => rw [vecValue, flatMap_sep, List.dropLast_concat]

theorem fmtInt_space (v : Int) : ' ' ∉ fmtInt 10 v := fmtInt_free v ' ' (by decide) (by decide)

theorem parseVector_join (xs : List Int) :
    parseVector (joinWith b!" " (xs.map (fmtInt 10))) = xs.map (fmtInt 10) := by
  cases xs with
  | nil => rfl
  | cons x xs =>
    rw [parseVector, if_pos, List.map_cons, sepLoop_join]
    · intro y hy
      rw [← List.map_cons (f := fmtInt 10)] at hy
      obtain ⟨x, -, rfl⟩ := List.mem_map.mp hy
      exact fmtInt_space x
    · have : fmtInt 10 x ≠ [] := fmtInt_ne_nil x
      have := List.length_pos_iff.mpr this
      cases xs <;> simp [joinWith] <;> omega

/-- C25: int2vector round trip, for all of its scanners. -/
theorem C25_vector (e : IntScan) (he : e ∈ intScans) (hs : e.shape = .vector)
    (v d : Option (List Int)) (h : ∀ xs, v = some xs → ∀ x ∈ xs, e.pg.Holds x ∧ e.dest.Holds x) :
    vecScan e d (vecValue v) = .ok v := by
  have hn : e.name ∉ narrow := by
    have : ∀ e ∈ intScans, e.shape = .vector → e.name ∉ narrow := by decide +kernel
    exact this e he hs
  cases v with
  | none => rfl
  | some xs =>
    rw [vecValue_some, vecScan, scanReset, parseVector_join,
      mapRes_map e.elem (fmtInt 10) id xs fun x hx =>
        elem_back e he hn x (h xs rfl x hx).1 (h xs rfl x hx).2]
    simp

/-- C25: the text is what the server sends for the numbers. -/
theorem C25_vector_server_out (xs : List Int) : vecValue (some xs) = some (vectorOut xs) := by
  rw [vecValue_some, vectorOut]
  congr 2
  exact List.map_congr_left fun x _ => fmtInt_eq x

theorem splitSpaces_append (w r : Bytes) (h : ' ' ∉ w) :
    splitSpaces (w ++ ' ' :: r) = w :: splitSpaces r := by
  induction w with
  | nil => simp [splitSpaces]
  | cons c w ih =>
    have hc : c ≠ ' ' := fun e => h (by simp [e])
    have := ih (fun hm => h (by simp [hm]))
    simp only [List.cons_append, splitSpaces, if_neg hc, this]

theorem splitSpaces_word (w : Bytes) (h : ' ' ∉ w) : splitSpaces w = [w] := by
  induction w with
  | nil => rfl
  | cons c w ih =>
    have hc : c ≠ ' ' := fun e => h (by simp [e])
    have := ih (fun hm => h (by simp [hm]))
    simp only [splitSpaces, if_neg hc, this]

theorem wordsIn_map (xs : List Int) : wordsIn (xs.map (fmtInt 10)) = some xs := by
  induction xs with
  | nil => rfl
  | cons x xs ih =>
    rw [List.map_cons, wordsIn, if_neg (by simp [fmtInt_ne_nil]), intIn_fmtInt, ih]
    rfl

theorem vectorIn_join (xs : List Int) : vectorIn (joinWith b!" " (xs.map (fmtInt 10))) = some xs := by
  rw [vectorIn]
  cases xs with
  | nil => rfl
  | cons x xs =>
    rw [← wordsIn_map (x :: xs)]
    congr 1
    induction xs generalizing x with
    | nil => simp [joinWith, splitSpaces_word _ (fmtInt_space x)]
    | cons y ys ih =>
      have := ih y
      simp only [List.map_cons] at this ⊢
      rw [joinWith, List.append_assoc, List.singleton_append, splitSpaces_append _ _ (fmtInt_space x),
        this]

/-- C25: the server reads the text as the numbers. -/
theorem C25_vector_server_in (xs : List Int) : ∃ t, vecValue (some xs) = some t ∧
    vectorIn t = some xs := ⟨_, vecValue_some xs, vectorIn_join xs⟩

theorem vecArrElem_cons (x : Int) (xs : List Int) :
    vecArrElem (x :: xs) = '"' :: (joinWith b!" " ((x :: xs).map (fmtInt 10)) ++ ['"']) := by
  rw [vecArrElem, flatMap_sep, ← List.cons_append, List.dropLast_concat]
  rfl

theorem vecQuoted_word (w cur t : Bytes) (o : Nat) (h1 : '"' ∉ w) (h2 : ' ' ∉ w) :
    vecQuoted cur o (w ++ t) = vecQuoted (cur ++ w) (o + w.length) t := by
  induction w generalizing cur o with
  | nil => simp
  | cons c w ih =>
    have hc : c ≠ '"' := fun e => h1 (by simp [e])
    have hd : c ≠ ' ' := fun e => h2 (by simp [e])
    rw [List.cons_append, vecQuoted, if_neg hc, if_neg hd,
      ih _ _ (fun hm => h1 (by simp [hm])) (fun hm => h2 (by simp [hm]))]
    simp only [List.append_assoc, List.singleton_append, List.length_cons]
    congr 1; omega

theorem vecQuoted_join (x : Bytes) (xs : List Bytes) (t : Bytes) (o : Nat)
    (h : ∀ y ∈ x :: xs, '"' ∉ y ∧ ' ' ∉ y) :
    vecQuoted [] o (joinWith b!" " (x :: xs) ++ '"' :: t) =
      (x :: xs, o + (joinWith b!" " (x :: xs)).length + 2) := by
  induction xs generalizing x o with
  | nil =>
    rw [joinWith, vecQuoted_word _ _ _ _ (h x (by simp)).1 (h x (by simp)).2]
    simp [vecQuoted]
  | cons y ys ih =>
    have := ih y (o + x.length + 1) (fun z hz => h z (by simp [hz]))
    rw [joinWith, List.append_assoc, List.append_assoc,
      vecQuoted_word _ _ _ _ (h x (by simp)).1 (h x (by simp)).2, List.singleton_append,
      vecQuoted, if_neg (by decide), if_pos rfl, this]
    simp only [List.nil_append, List.length_append, List.length_singleton]
    congr 1; omega

theorem vecArrLoop_skip (k : Nat) (s : Bytes) : vecArrLoop k s = vecArrLoop 0 (s.drop k) := by
  induction s generalizing k with
  | nil => cases k <;> simp [vecArrLoop]
  | cons c s ih =>
    cases k with
    | zero => rfl
    | succ k => rw [vecArrLoop, ih k]; rfl

theorem vecArrLoop_elem (x : Int) (xs : List Int) (t : Bytes) :
    vecArrLoop 0 (vecArrElem (x :: xs) ++ t) =
      some ((x :: xs).map (fmtInt 10)) :: vecArrLoop 0 (t.drop 1) := by
  have e : vecArrElem (x :: xs) ++ t =
      '"' :: (joinWith b!" " ((x :: xs).map (fmtInt 10)) ++ '"' :: t) := by
    rw [vecArrElem_cons]; simp
  have hq : ∀ y ∈ fmtInt 10 x :: xs.map (fmtInt 10), '"' ∉ y ∧ ' ' ∉ y := by
    intro y hy
    rw [← List.map_cons (f := fmtInt 10)] at hy
    obtain ⟨z, -, rfl⟩ := List.mem_map.mp hy
    exact ⟨fmtInt_free z '"' (by decide) (by decide), fmtInt_space z⟩
  have := vecQuoted_join (fmtInt 10 x) (xs.map (fmtInt 10)) t 0 hq
  rw [e, vecArrLoop, if_pos rfl]
  simp only [List.map_cons] at this ⊢
  rw [this, vecArrLoop_skip]
  congr 2
  simp only [Nat.zero_add, List.drop_append]
  rw [List.drop_eq_nil_of_le (by omega)]
  simp

theorem vecArrLoop_join (xss : List (List Int)) (h : [] ∉ xss) :
    vecArrLoop 0 (joinWith b!"," (xss.map vecArrElem)) =
      xss.map fun xs => some (xs.map (fmtInt 10)) := by
  induction xss with
  | nil => rfl
  | cons xs xss ih =>
    have ih' := ih (fun hm => h (by simp [hm]))
    cases xs with
    | nil => exact absurd (by simp) h
    | cons x xs =>
      cases xss with
      | nil =>
        have := vecArrLoop_elem x xs []
        simpa [joinWith, vecArrLoop] using this
      | cons ys yss =>
        simp only [List.map_cons] at ih' ⊢
        rw [joinWith, List.append_assoc, vecArrLoop_elem, ← ih']
        simp

/-- C25: int2vector[] round trip for slices of vectors none of which is empty. -/
theorem C25_arr_partial (e : IntScan) (he : e ∈ intScans) (hs : e.shape = .vectorArr)
    (v d : Option (List (List Int)))
    (h : ∀ xss, v = some xss → [] ∉ xss ∧
      ∀ xs ∈ xss, ∀ x ∈ xs, e.pg.Holds x ∧ e.dest.Holds x) :
    vecArrScan e d (vecArrValue v) = .ok v := by
  have hn : e.name ∉ narrow := by
    have : ∀ e ∈ intScans, e.shape = .vectorArr → e.name ∉ narrow := by decide +kernel
    exact this e he hs
  cases v with
  | none => rfl
  | some xss =>
    rw [vecArrValue, arrValue_some, vecArrScan, scanReset, parseVectorArray, if_neg (by simp),
      dropEnds_wrap]
    simp only [Option.bind_eq_bind, Option.bind_some, pure, ofParse, Res.bind_ok,
      vecArrLoop_join xss (h xss rfl).1]
    rw [mapRes_map _ (fun xs => some (xs.map (fmtInt 10))) id xss]
    · simp
    · intro xs hxs
      rw [Option.getD_some, mapRes_map e.elem (fmtInt 10) id xs fun x hx =>
        elem_back e he hn x ((h xss rfl).2 xs hxs x hx).1 ((h xss rfl).2 xs hxs x hx).2]
      simp

theorem mem_joinWith {sep : Bytes} {c : Char} (xs : List Bytes) (h : c ∈ joinWith sep xs) :
    c ∈ sep ∨ ∃ x ∈ xs, c ∈ x := by
  induction xs with
  | nil => cases h
  | cons x xs ih =>
    cases xs with
    | nil => exact .inr ⟨x, by simp, h⟩
    | cons y ys =>
      rw [joinWith, List.mem_append, List.mem_append] at h
      rcases h with (h | h) | h
      · exact .inr ⟨x, by simp, h⟩
      · exact .inl h
      · rcases ih h with h | ⟨z, hz, hc⟩
        · exact .inl h
        · exact .inr ⟨z, by simp [hz], hc⟩

theorem join_ints_free (xs : List Int) (c : Char) (h1 : isDig 10 c = false) (h2 : c ≠ '-')
    (h3 : c ≠ ' ') : c ∉ joinWith b!" " (xs.map (fmtInt 10)) := by
  intro h
  rcases mem_joinWith _ h with h | ⟨y, hy, hc⟩
  · simp at h; exact h3 h
  · obtain ⟨x, -, rfl⟩ := List.mem_map.mp hy
    exact fmtInt_free x c h1 h2 hc

theorem escWith_out_join (xs : List Int) :
    escWith (fun c => decide (c = '"' ∨ c = '\\')) (joinWith b!" " (xs.map (fmtInt 10))) =
      joinWith b!" " (xs.map (fmtInt 10)) := by
  apply escWith_none
  intro c hc
  rw [decide_eq_false_iff_not]
  rintro (rfl | rfl)
  · exact join_ints_free xs _ (by decide) (by decide) (by decide) hc
  · exact join_ints_free xs _ (by decide) (by decide) (by decide) hc

/-- C25: for such slices the server reads the literal as the vectors. -/
theorem C25_arr_server_in_partial (xss : List (List Int)) (h : [] ∉ xss) : ∃ lit,
    vecArrValue (some xss) = some lit ∧
    arrayIn lit = some (xss.map fun xs => some (joinWith b!" " (xs.map (fmtInt 10)))) ∧
    ∀ xs ∈ xss, vectorIn (joinWith b!" " (xs.map (fmtInt 10))) = some xs := by
  refine ⟨_, arrValue_some _ _, arrayIn_lit _ _ xss ?_, fun xs _ => vectorIn_join xs⟩
  intro xs hxs
  cases xs with
  | nil => exact absurd hxs h
  | cons x xs =>
    have := readsAs_quoted _ covers_out (joinWith b!" " ((x :: xs).map (fmtInt 10)))
    rw [escWith_out_join] at this
    rw [vecArrElem_cons]
    exact this

/-- C25: for slices of vectors of at least two numbers the literal is what the server sends, so that
is scanned to the vectors (`C25_arr_partial`). -/
theorem C25_arr_server_out_partial (xss : List (List Int)) (h : ∀ xs ∈ xss, 2 ≤ xs.length) :
    vecArrValue (some xss) = some (arrayOut (xss.map fun xs => some (vectorOut xs))) := by
  rw [vecArrValue, arrValue_some, arrayOut, List.map_map]
  congr 3
  congr 1
  apply List.map_congr_left
  intro xs hxs
  match xs, h xs hxs with
  | x :: y :: r, _ =>
    have e : vectorOut (x :: y :: r) = joinWith b!" " ((x :: y :: r).map (fmtInt 10)) := by
      rw [vectorOut]; congr 1; exact List.map_congr_left fun x _ => (fmtInt_eq x).symm
    have hq : needsQuote (joinWith b!" " ((x :: y :: r).map (fmtInt 10))) = true := by
      rw [needsQuote, Bool.or_eq_true]
      right
      rw [List.any_eq_true]
      exact ⟨' ', by simp [joinWith], by decide⟩
    have := escWith_out_join (x :: y :: r)
    rw [Function.comp_apply, e, elemOut, if_pos hq, vecArrElem_cons, quoteOut_eq, this]

/-- C25 fails for an empty vector: only one quote is written for it. The server does not accept the
literal, nor does any of the scanners. -/
theorem C25_not_empty : vecArrValue (some [[], [1]]) = some b!"{\",\"1\"}" ∧
    arrayIn b!"{\",\"1\"}" = none ∧
    ∀ e ∈ intScans, e.shape = .vectorArr → ∀ d,
      vecArrScan e d (vecArrValue (some [[], [1]])) = .err .syntax := by
  refine ⟨by decide, by decide, ?_⟩
  have : ∀ e ∈ intScans, e.shape = .vectorArr →
    vecArrScan e none (vecArrValue (some [[], [1]])) = .err .syntax := by decide +kernel
  exact fun e he hs _ => this e he hs

/-- C25 fails for what the server sends for a vector of one number, which has no quotes: the number is
followed by a vector of its digits from the second one. -/
theorem C25_not_server_single : arrayOut [some (vectorOut [12])] = b!"{12}" ∧
    ∀ e ∈ intScans, e.shape = .vectorArr → ∀ d,
      vecArrScan e d (some b!"{12}") = .ok (some [[12], [2]]) := by
  refine ⟨by decide, ?_⟩
  have : ∀ e ∈ intScans, e.shape = .vectorArr →
    vecArrScan e none (some b!"{12}") = .ok (some [[12], [2]]) := by decide +kernel
  exact fun e he hs _ => this e he hs

/-- C25 fails for what the server sends for an empty vector. -/
theorem C25_not_server_empty : arrayOut [some (vectorOut [])] = b!"{\"\"}" ∧
    ∀ e ∈ intScans, e.shape = .vectorArr → ∀ d,
      vecArrScan e d (some b!"{\"\"}") = .err .syntax := by
  refine ⟨by decide, ?_⟩
  have : ∀ e ∈ intScans, e.shape = .vectorArr →
    vecArrScan e none (some b!"{\"\"}") = .err .syntax := by decide +kernel
  exact fun e he hs _ => this e he hs

/-- C25 fails for what the server sends for a NULL that is not the last element. -/
theorem C25_not_server_null : arrayOut [none, some (vectorOut [1, 2])] = b!"{NULL,\"1 2\"}" ∧
    ∀ e ∈ intScans, e.shape = .vectorArr → ∀ d,
      vecArrScan e d (some b!"{NULL,\"1 2\"}") = .err .syntax := by
  refine ⟨by decide, ?_⟩
  have : ∀ e ∈ intScans, e.shape = .vectorArr →
    vecArrScan e none (some b!"{NULL,\"1 2\"}") = .err .syntax := by decide +kernel
  exact fun e he hs _ => this e he hs

example : (intScans.filter fun e => e.shape = .vector).length = 12 := by decide +kernel
example : (intScans.filter fun e => e.shape = .vectorArr).length = 12 := by decide +kernel
example : vecValue (some [1, -2, 30]) = some b!"1 -2 30" := by decide
example : vecArrValue (some [[1, -2], [30]]) = some b!"{\"1 -2\",\"30\"}" := by decide
example : vecArrScan ⟨"int2VectorArrayToInt16SliceSlice", .int2, .vectorArr, true, 16, .int .int16⟩
    none (some b!"{\"1 -2\",\"30\"}") = .ok (some [[1, -2], [30]]) := by decide +kernel

/-! ### C26: ranges -/

theorem rangeLoop_append (w cur t : Bytes) (h : ',' ∉ w) :
    rangeLoop cur (w ++ ',' :: t) = (cur ++ w, t) := by
  induction w generalizing cur with
  | nil => simp [rangeLoop]
  | cons c w ih =>
    have hc : c ≠ ',' := fun e => h (by simp [e])
    rw [List.cons_append, rangeLoop, if_neg hc, ih _ (fun hm => h (by simp [hm]))]
    simp

theorem parseRange_value (v : Int × Int) :
    parseRange (rangeValue v) = some (fmtInt 10 v.1, fmtInt 10 v.2) := by
  have e : rangeValue v = '[' :: ((fmtInt 10 v.1 ++ ',' :: fmtInt 10 v.2) ++ [')']) := by
    simp [rangeValue]
  rw [e, parseRange, dropEnds_wrap]
  simp only [Option.bind_eq_bind, Option.bind_some, pure, rangeLoop_append _ _ _ (fmtInt_comma v.1),
    List.nil_append]

theorem bound_back (e : IntScan) (he : e ∈ intScans) (hn : e.name ∉ narrow) (v : Int)
    (h1 : e.pg.Holds v) (h2 : e.dest.Holds v) : e.bound (fmtInt 10 v) = .ok v := by
  rw [IntScan.bound, if_pos (List.length_pos_iff.mpr (fmtInt_ne_nil v)), elem_back e he hn v h1 h2]

theorem range_back (e : IntScan) (he : e ∈ intScans) (hn : e.name ∉ narrow) (v : Int × Int)
    (h1 : e.pg.Holds v.1 ∧ e.dest.Holds v.1) (h2 : e.pg.Holds v.2 ∧ e.dest.Holds v.2) :
    (ofParse (parseRange (rangeValue v))).bind e.range = .ok v := by
  rw [parseRange_value]
  simp only [ofParse, Res.bind_ok, IntScan.range, bound_back e he hn _ h1.1 h1.2,
    bound_back e he hn _ h2.1 h2.2, Res.map_ok]

/-- C26: the text produced from a pair of numbers is scanned back to the pair. -/
theorem C26_round_trip (e : IntScan) (he : e ∈ intScans) (hn : e.name ∉ narrow) (v d : Int × Int)
    (h1 : e.pg.Holds v.1 ∧ e.dest.Holds v.1) (h2 : e.pg.Holds v.2 ∧ e.dest.Holds v.2) :
    rangeScan e d (some (rangeValue v)) = .ok v := by
  rw [rangeScan, scanKeep, range_back e he hn v h1 h2]

/-- The server's reading of the text produced from a pair. -/
theorem rangeIn_value (lo hi : Int) : rangeIn (rangeValue (lo, hi)) =
    if hi < lo then none
    else if hi = lo then some .empty else some (.span (some lo) (some hi)) := by
  have e : rangeValue (lo, hi) = '[' :: ((fmtInt 10 lo ++ ',' :: fmtInt 10 hi) ++ [')']) := by
    simp [rangeValue]
  have hne : '[' :: ((fmtInt 10 lo ++ ',' :: fmtInt 10 hi) ++ [')']) ≠ b!"empty" := by
    intro h; simp at h
  have htw : (fmtInt 10 lo ++ ',' :: fmtInt 10 hi).takeWhile (· ≠ ',') = fmtInt 10 lo :=
    takeWhile_ne_append (fmtInt_comma lo) (.inr ⟨_, rfl⟩)
  have hdw : (fmtInt 10 lo ++ ',' :: fmtInt 10 hi).dropWhile (· ≠ ',') = ',' :: fmtInt 10 hi := by
    have := List.takeWhile_append_dropWhile (p := (· ≠ ','))
      (l := fmtInt 10 lo ++ ',' :: fmtInt 10 hi)
    rw [htw] at this
    exact List.append_cancel_left this
  have hb : ∀ v, boundIn (fmtInt 10 v) = some (some v) := by
    intro v
    rw [boundIn, if_neg (by simp [fmtInt_ne_nil]), intIn_fmtInt]; rfl
  rw [e, rangeIn, if_neg hne]
  simp only [List.getLast?_concat, List.dropLast_concat, htw, hdw, hb]
  rw [if_pos (by simp)]
  simp only [Option.bind_eq_bind, Option.bind_some, canon, decide_eq_true_eq]
  by_cases h1 : hi < lo
  · simp [h1]
  · have h3 : hi ≤ lo ↔ hi = lo := by omega
    simp [h1, h3]

/-- C26: a pair with the lower bound less than the upper bound survives being stored in an int4range
or int8range column and read back: the server's canonical form is scanned to the pair. -/
theorem C26_server_partial (e : IntScan) (he : e ∈ intScans) (hn : e.name ∉ narrow)
    (v d : Int × Int) (h1 : e.pg.Holds v.1 ∧ e.dest.Holds v.1)
    (h2 : e.pg.Holds v.2 ∧ e.dest.Holds v.2) (hlt : v.1 < v.2) :
    ∃ r, rangeIn (rangeValue v) = some r ∧ rangeScan e d (some (rangeOut r)) = .ok v := by
  refine ⟨.span (some v.1) (some v.2), ?_, ?_⟩
  · rw [show v = (v.1, v.2) from rfl, rangeIn_value, if_neg (by omega), if_neg (by omega)]
  · have : rangeOut (.span (some v.1) (some v.2)) = rangeValue v := by
      simp [rangeOut, rangeValue, fmtInt_eq]
    rw [this, C26_round_trip e he hn v d h1 h2]

/-- C26 fails for equal bounds: the server stores the empty range and the scanners give 0 and 0. -/
theorem C26_not_equal_bounds (e : IntScan) (d : Int × Int) (x : Int) :
    rangeIn (rangeValue (x, x)) = some .empty ∧
    rangeScan e d (some (rangeOut .empty)) = .ok (0, 0) := by
  refine ⟨by rw [rangeIn_value]; simp, ?_⟩
  simp [rangeScan, scanKeep, rangeOut, parseRange, dropEnds, rangeLoop, ofParse, IntScan.range,
    IntScan.bound, pure]

/-- C26: a pair with the lower bound greater than the upper bound is turned down by the server. -/
theorem C26_server_reversed (lo hi : Int) (h : hi < lo) : rangeIn (rangeValue (lo, hi)) = none := by
  rw [rangeIn_value, if_pos h]

/-- C26 fails for unbounded ranges: a missing bound is scanned as 0, and so as a different range. -/
theorem C26_not_unbounded (e : IntScan) (he : e ∈ intScans) (hn : e.name ∉ narrow) (x : Int)
    (d : Int × Int) (h : e.pg.Holds x ∧ e.dest.Holds x) :
    rangeScan e d (some (rangeOut (.span none (some x)))) = .ok (0, x) ∧
    rangeScan e d (some (rangeOut (.span (some x) none))) = .ok (x, 0) ∧
    rangeScan e d (some (rangeOut (.span none none))) = .ok (0, 0) := by
  have hb := bound_back e he hn x h.1 h.2
  have h0 : e.bound [] = .ok 0 := rfl
  refine ⟨?_, ?_, rfl⟩
  · have e1 : rangeOut (.span none (some x)) = '(' :: ((',' :: fmtInt 10 x) ++ [')']) := by
      simp [rangeOut, fmtInt_eq]
    rw [e1, rangeScan, scanKeep, parseRange, dropEnds_wrap]
    simp [rangeLoop, ofParse, IntScan.range, hb, h0, pure]
  · have e1 : rangeOut (.span (some x) none) = '[' :: ((fmtInt 10 x ++ ',' :: []) ++ [')']) := by
      simp [rangeOut, fmtInt_eq]
    rw [e1, rangeScan, scanKeep, parseRange, dropEnds_wrap]
    simp [rangeLoop_append _ _ _ (fmtInt_comma x), ofParse, IntScan.range, hb, h0, pure]

/-- C26: NULL leaves what the destination held. -/
theorem C26_not_null (e : IntScan) (d : Int × Int) : rangeScan e d none = .ok d := rfl

/-! Arrays of ranges -/

theorem rangeValue_free (v : Int × Int) : '"' ∉ rangeValue v ∧ '\\' ∉ rangeValue v := by
  have h := fun x => fmtInt_free x '"' (by decide) (by decide)
  have h' := fun x => fmtInt_free x '\\' (by decide) (by decide)
  constructor <;> simp [rangeValue, h, h']

theorem closeQuote_free (w t : Bytes) (o : Nat) (h : '"' ∉ w) (h' : '\\' ∉ w) :
    closeQuote o (w ++ '"' :: t) = some (o + w.length) := by
  induction w generalizing o with
  | nil => cases t <;> simp [closeQuote]
  | cons c w ih =>
    have hc : c ≠ '"' := fun e => h (by simp [e])
    have hd : c ≠ '\\' := fun e => h' (by simp [e])
    have : closeQuote o (c :: (w ++ '"' :: t)) = closeQuote (o + 1) (w ++ '"' :: t) := by
      cases w <;> simp [closeQuote, hc, hd]
    rw [List.cons_append, this, ih _ (fun hm => h (by simp [hm])) (fun hm => h' (by simp [hm])),
      List.length_cons]
    congr 1; omega

theorem quotedArrLoop_skip (k : Nat) (s : Bytes) : quotedArrLoop k s = quotedArrLoop 0 (s.drop k) := by
  induction s generalizing k with
  | nil => cases k <;> simp [quotedArrLoop]
  | cons c s ih =>
    cases k with
    | zero => rfl
    | succ k => rw [quotedArrLoop, ih k]; rfl

theorem quotedArrLoop_elem (w t : Bytes) (h : '"' ∉ w) (h' : '\\' ∉ w) :
    quotedArrLoop 0 ((['"'] ++ w ++ ['"']) ++ t) = some w :: quotedArrLoop 0 (t.drop 1) := by
  have e : (['"'] ++ w ++ ['"']) ++ t = '"' :: (w ++ '"' :: t) := by simp
  rw [e, quotedArrLoop, if_pos rfl, closeQuote_free w t 0 h h']
  simp only [Nat.zero_add]
  rw [quotedArrLoop_skip]
  congr 1
  · simp
  · congr 1
    simp only [List.drop_append]
    rw [List.drop_eq_nil_of_le (by omega)]
    simp

theorem quotedArrLoop_join {α : Type} (g : α → Bytes) (xs : List α)
    (h : ∀ x ∈ xs, '"' ∉ g x ∧ '\\' ∉ g x) :
    quotedArrLoop 0 (joinWith b!"," (xs.map fun x => ['"'] ++ g x ++ ['"'])) =
      xs.map fun x => some (g x) := by
  induction xs with
  | nil => rfl
  | cons x xs ih =>
    have ih' := ih (fun y hy => h y (by simp [hy]))
    have hx := h x (by simp)
    cases xs with
    | nil =>
      have := quotedArrLoop_elem (g x) [] hx.1 hx.2
      simpa [joinWith, quotedArrLoop] using this
    | cons y ys =>
      simp only [List.map_cons] at ih' ⊢
      rw [joinWith, List.append_assoc, quotedArrLoop_elem _ _ hx.1 hx.2, ← ih']
      simp

theorem parseQuoted_lit {α : Type} (a b : Char) (g : α → Bytes) (xs : List α)
    (h : ∀ x ∈ xs, '"' ∉ g x ∧ '\\' ∉ g x) :
    parseQuotedStringArray (a :: (joinWith b!"," (xs.map fun x => ['"'] ++ g x ++ ['"']) ++ [b])) =
      some (xs.map fun x => some (g x)) := by
  rw [parseQuotedStringArray, dropEnds_wrap]
  simp only [Option.bind_eq_bind, Option.bind_some, pure, quotedArrLoop_join g xs h]

/-- C26: arrays of ranges round trip. -/
theorem C26_arr (e : IntScan) (he : e ∈ intScans) (hn : e.name ∉ narrow) (vs : List (Int × Int))
    (d : Option (List (Int × Int)))
    (h : ∀ v ∈ vs, (e.pg.Holds v.1 ∧ e.dest.Holds v.1) ∧ e.pg.Holds v.2 ∧ e.dest.Holds v.2) :
    rangeArrScan e d (rangeArrValue (some vs)) = .ok (some vs) := by
  have hp := parseQuoted_lit '{' '}' rangeValue vs fun v _ => rangeValue_free v
  rw [rangeArrValue, arrValue_some, rangeArrScan, scanKeep]
  have e1 : rangeElem = fun v => ['"'] ++ rangeValue v ++ ['"'] := rfl
  rw [e1, hp]
  simp only [ofParse, Res.bind_ok]
  rw [mapRes_map _ (fun v => some (rangeValue v)) id vs]
  · simp
  · intro v hv
    exact range_back e he hn v (h v hv).1 (h v hv).2

/-- C26: the server reads the array literal as the texts of the ranges. -/
theorem C26_arr_server_in (vs : List (Int × Int)) : ∃ lit, rangeArrValue (some vs) = some lit ∧
    arrayIn lit = some (vs.map fun v => some (rangeValue v)) := by
  refine ⟨_, arrValue_some _ _, arrayIn_lit _ _ vs ?_⟩
  intro v _
  have := readsAs_quoted _ covers_out (rangeValue v)
  rw [escWith_none] at this
  · simpa [rangeElem] using this
  · intro c hc
    rw [decide_eq_false_iff_not]
    rintro (rfl | rfl)
    · exact (rangeValue_free v).1 hc
    · exact (rangeValue_free v).2 hc

/-- C26: what the server sends for an array of ranges with both bounds is the literal of the pairs, so
it is scanned to the pairs (`C26_arr`). -/
theorem C26_arr_server_out_partial (vs : List (Int × Int)) :
    rangeArrValue (some vs) =
      some (arrayOut (vs.map fun v => some (rangeOut (.span (some v.1) (some v.2))))) := by
  rw [rangeArrValue, arrValue_some, arrayOut, List.map_map]
  congr 3
  congr 1
  apply List.map_congr_left
  intro v _
  have e : rangeOut (.span (some v.1) (some v.2)) = rangeValue v := by
    simp [rangeOut, rangeValue, fmtInt_eq]
  have hq : needsQuote (rangeValue v) = true := by
    rw [needsQuote, Bool.or_eq_true]
    right
    rw [List.any_eq_true]
    exact ⟨',', by simp [rangeValue], by decide⟩
  have : escWith (fun c => decide (c = '"' ∨ c = '\\')) (rangeValue v) = rangeValue v := by
    apply escWith_none
    intro c hc
    rw [decide_eq_false_iff_not]
    rintro (rfl | rfl)
    · exact (rangeValue_free v).1 hc
    · exact (rangeValue_free v).2 hc
  rw [Function.comp_apply, e, elemOut, if_pos hq, quoteOut_eq, this]
  simp [rangeElem]

/-- C26 fails for empty ranges in an array: they are left out, so later ranges change position. -/
theorem C26_not_arr_empty (e : IntScan) (he : e ∈ intScans) (hs : e.shape = .rangeArr)
    (d : Option (List (Int × Int))) :
    arrayOut [some (rangeOut .empty), some (rangeOut (.span (some 1) (some 5)))] =
      b!"{empty,\"[1,5)\"}" ∧
    rangeArrScan e d (some b!"{empty,\"[1,5)\"}") = .ok (some [(1, 5)]) := by
  refine ⟨by decide, ?_⟩
  have : ∀ e ∈ intScans, e.shape = .rangeArr →
    rangeArrScan e none (some b!"{empty,\"[1,5)\"}") = .ok (some [(1, 5)]) := by decide +kernel
  exact this e he hs

/-- C26 fails for a NULL in an array: the scanner panics. -/
theorem C26_not_arr_null (e : IntScan) (d : Option (List (Int × Int))) :
    arrayOut [none] = b!"{NULL}" ∧ rangeArrScan e d (some b!"{NULL}") = .panic :=
  ⟨by decide, rfl⟩

/-- C26: NULL instead of an array leaves what the destination held. -/
theorem C26_arr_not_reset (e : IntScan) (d : Option (List (Int × Int))) :
    rangeArrScan e d none = .ok d := rfl

example : (intScans.filter fun e => e.shape = .range).length = 36 := by decide +kernel
example : (intScans.filter fun e => e.shape = .rangeArr).length = 36 := by decide +kernel
example : rangeValue (-3, 12) = b!"[-3,12)" := by decide
example : rangeIn b!"(1,5]" = some (.span (some 2) (some 6)) := by decide
example : rangeIn b!"[5,]" = some (.span (some 5) none) := by decide
example : rangeIn b!"(4,5)" = some .empty := by decide
example : rangeArrValue (some [(1, 2), (-3, 4)]) = some b!"{\"[1,2)\",\"[-3,4)\"}" := by decide

end Verif.Pgsql
