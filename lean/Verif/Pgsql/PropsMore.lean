import Verif.Pgsql.PropsNull
/-
More about arrays of vectors (C25), arrays of quoted texts (C26) and the sources of `Scan` (C27).
-/
namespace Verif.Pgsql

open Verif Verif.PgServer

/-! ### Arrays of vectors as the server sends them -/

theorem vecUnquoted_word (w cur t : Bytes) (o : Nat) (h : ',' ∉ w) :
    vecUnquoted cur o (w ++ ',' :: t) = (cur ++ w, o + w.length) := by
  induction w generalizing cur o with
  | nil => simp [vecUnquoted]
  | cons c w ih =>
    have hc : c ≠ ',' := fun e => h (by simp [e])
    rw [List.cons_append, vecUnquoted, if_neg hc, ih _ _ (fun hm => h (by simp [hm]))]
    simp only [List.length_cons, List.append_assoc, List.singleton_append]
    congr 1; omega

theorem fmtInt_head (x : Int) : ∃ c w, fmtInt 10 x = c :: w ∧ c ≠ '"' ∧ c ≠ 'N' := by
  cases h : fmtInt 10 x with
  | nil => exact absurd h (fmtInt_ne_nil x)
  | cons c w =>
    refine ⟨c, w, rfl, ?_, ?_⟩
    · rintro rfl; exact fmtInt_free x '"' (by decide) (by decide) (by rw [h]; simp)
    · rintro rfl; exact fmtInt_free x 'N' (by decide) (by decide) (by rw [h]; simp)

/-- One number without quotes that is not the last element. -/
theorem vecArrLoop_single (x : Int) (t : Bytes) :
    vecArrLoop 0 (fmtInt 10 x ++ ',' :: t) = some [fmtInt 10 x] :: vecArrLoop 0 t := by
  obtain ⟨c, w, e, h1, h2⟩ := fmtInt_head x
  have hu : vecUnquoted [] 0 (c :: (w ++ ',' :: t)) = (c :: w, (c :: w).length) := by
    have := vecUnquoted_word (c :: w) [] t 0 (e ▸ fmtInt_comma x)
    rw [List.cons_append] at this
    rw [this]; simp
  rw [e, List.cons_append, vecArrLoop, if_neg h1, if_neg h2, hu, vecArrLoop_skip]
  simp

theorem elemOut_single (x : Int) : elemOut (some (vectorOut [x])) = fmtInt 10 x := by
  have e : vectorOut [x] = fmtInt 10 x := by simp [vectorOut, joinWith, fmtInt_eq]
  have hq : needsQuote (fmtInt 10 x) = false := by
    rw [needsQuote, Bool.or_eq_false_iff, Bool.or_eq_false_iff]
    refine ⟨⟨?_, isNull_fmtInt x⟩, ?_⟩
    · simpa using fmtInt_ne_nil x
    · rw [List.any_eq_false]
      intro c hc
      have := fmtInt_plain x c hc
      simp [this]
  rw [e, elemOut, hq]; rfl

theorem elemOut_many (x y : Int) (r : List Int) :
    elemOut (some (vectorOut (x :: y :: r))) = vecArrElem (x :: y :: r) := by
  have := C25_arr_server_out_partial [x :: y :: r] (by simp)
  rw [vecArrValue, arrValue_some, arrayOut] at this
  simp only [List.map_cons, List.map_nil, joinWith, Option.some.injEq, List.cons_append,
    List.cons.injEq, true_and] at this
  exact (List.append_cancel_right this).symm

/-- A vector the scanners read correctly at the end of an array. -/
def LastOk (xs : List Int) : Prop := 2 ≤ xs.length ∨ ∃ x, xs = [x] ∧ (fmtInt 10 x).length = 1

theorem vecArrLoop_out (xss : List (List Int)) (h : [] ∉ xss)
    (hl : ∀ xs, xss.getLast? = some xs → LastOk xs) :
    vecArrLoop 0 (joinWith b!"," (xss.map fun xs => elemOut (some (vectorOut xs)))) =
      xss.map fun xs => some (xs.map (fmtInt 10)) := by
  induction xss with
  | nil => rfl
  | cons xs xss ih =>
    cases xss with
    | nil =>
      rcases hl xs rfl with h2 | ⟨x, rfl, hx⟩
      · match xs, h2 with
        | x :: y :: r, _ =>
          have := vecArrLoop_elem x (y :: r) []
          simp only [List.map_cons, List.map_nil, joinWith, elemOut_many]
          simpa [vecArrLoop] using this
      · simp only [List.map_cons, List.map_nil, joinWith, elemOut_single]
        obtain ⟨c, w, e, h1, h2⟩ := fmtInt_head x
        rw [e] at hx ⊢
        have : w = [] := by simpa using hx
        subst this
        by_cases hc : c = ','
        · subst hc; exact absurd (by rw [e]; simp) (fmtInt_comma x)
        · simp [vecArrLoop, h1, h2, vecUnquoted, hc]
    | cons ys yss =>
      have ih' := ih (fun hm => h (by simp [hm])) (fun zs hz => hl zs (by simpa using hz))
      simp only [List.map_cons] at ih' ⊢
      rw [joinWith, List.append_assoc]
      match xs, h with
      | [], h => exact absurd (by simp) h
      | [x], _ =>
        rw [elemOut_single, List.singleton_append, vecArrLoop_single, ih']
        rfl
      | x :: y :: r, _ =>
        rw [elemOut_many, vecArrLoop_elem, ← ih']
        simp

/-- C25: an array of vectors as the server sends it is scanned to these vectors, if none is empty and
the last one has more than one number, or is a single digit. (Before the last element a vector of one
number is read correctly; compare `C25_not_server_single`.) -/
theorem C25_arr_server_scan_partial (e : IntScan) (he : e ∈ intScans) (hs : e.shape = .vectorArr)
    (xss : List (List Int)) (d : Option (List (List Int))) (h0 : [] ∉ xss)
    (hl : ∀ xs, xss.getLast? = some xs → LastOk xs)
    (h : ∀ xs ∈ xss, ∀ x ∈ xs, e.pg.Holds x ∧ e.dest.Holds x) :
    vecArrScan e d (some (arrayOut (xss.map fun xs => some (vectorOut xs)))) = .ok (some xss) := by
  have hn : e.name ∉ narrow := by
    have : ∀ e ∈ intScans, e.shape = .vectorArr → e.name ∉ narrow := by decide +kernel
    exact this e he hs
  have hp := vecArrLoop_out xss h0 hl
  rw [arrayOut, List.map_map, vecArrScan, scanReset, List.cons_append, parseVectorArray,
    if_neg (by simp), dropEnds_wrap]
  have ec : (elemOut ∘ fun xs => some (vectorOut xs)) = fun xs => elemOut (some (vectorOut xs)) := rfl
  rw [ec]
  simp only [Option.bind_eq_bind, Option.bind_some, pure, ofParse, Res.bind_ok, hp]
  rw [mapRes_map _ (fun xs => some (xs.map (fmtInt 10))) id xss]
  · simp
  · intro xs hxs
    rw [Option.getD_some, mapRes_map e.elem (fmtInt 10) id xs fun x hx =>
      elem_back e he hn x (h xs hxs x hx).1 (h xs hxs x hx).2]
    simp

example : LastOk [7] := .inr ⟨7, rfl, by decide⟩
example : arrayOut ([[12], [-3], [4, 5], [7]].map fun xs => some (vectorOut xs)) =
    b!"{12,-3,\"4 5\",7}" := by decide
example : vecArrScan ⟨"int2VectorArrayToInt16SliceSlice", .int2, .vectorArr, true, 16, .int .int16⟩
    none (some b!"{12,-3,\"4 5\",7}") = .ok (some [[12], [-3], [4, 5], [7]]) := by decide +kernel

/-! ### Arrays of quoted texts -/

/-- What stands between the quotes of a quoted element. -/
def quotedBody (w : Bytes) : Bytes :=
  w.flatMap fun c => if c = '"' ∨ c = '\\' then ['\\', c] else [c]

theorem closeQuote_body (w t : Bytes) (o : Nat) :
    closeQuote o (quotedBody w ++ '"' :: t) = some (o + (quotedBody w).length) := by
  induction w generalizing o with
  | nil => cases t <;> simp [quotedBody, closeQuote]
  | cons c w ih =>
    by_cases hc : c = '"' ∨ c = '\\'
    · have e : quotedBody (c :: w) = '\\' :: c :: quotedBody w := by
        simp [quotedBody, hc]
      rw [e, List.cons_append, List.cons_append, closeQuote, if_pos rfl]
      simp only [ih, List.length_cons]
      congr 1; omega
    · have e : quotedBody (c :: w) = c :: quotedBody w := by
        simp [quotedBody, hc]
      have h1 : c ≠ '\\' := fun h => hc (.inr h)
      have h2 : c ≠ '"' := fun h => hc (.inl h)
      rw [e, List.cons_append, closeQuote.eq_def]
      simp only [if_neg h1, if_neg h2, ih, List.length_cons]
      congr 1; omega

/-- C26: the element parser shared by all range arrays splits an array of quoted elements, as the
server writes them, into the bodies of exactly these elements, whatever texts they hold; it does not
remove the backslashes. -/
theorem C26_quoted_elems (ws : List Bytes) :
    parseQuotedStringArray ('{' :: (joinWith b!"," (ws.map quoteOut) ++ ['}'])) =
      some (ws.map fun w => some (quotedBody w)) := by
  rw [parseQuotedStringArray, dropEnds_wrap]
  simp only [Option.bind_eq_bind, Option.bind_some, pure, Option.some.injEq]
  have helem : ∀ (w t : Bytes), quotedArrLoop 0 (quoteOut w ++ t) =
      some (quotedBody w) :: quotedArrLoop 0 (t.drop 1) := by
    intro w t
    have e : quoteOut w ++ t = '"' :: (quotedBody w ++ '"' :: t) := by simp [quoteOut, quotedBody]
    rw [e, quotedArrLoop, if_pos rfl, closeQuote_body]
    simp only [Nat.zero_add]
    rw [quotedArrLoop_skip]
    congr 1
    · simp
    · congr 1
      simp only [List.drop_append]
      rw [List.drop_eq_nil_of_le (by omega)]
      simp
  induction ws with
  | nil => rfl
  | cons w ws ih =>
    cases ws with
    | nil => simpa [joinWith, quotedArrLoop] using helem w []
    | cons y ys =>
      simp only [List.map_cons] at ih ⊢
      rw [joinWith, List.append_assoc, helem, ← ih]
      simp

example : parseQuotedStringArray b!"{\"a\\\"b\",\"[1,2)\"}" = some [some b!"a\\\"b", some b!"[1,2)"] := by
  decide

/-! ### Sources -/

/-- C27: a driver may hand over a value as bytes or as a string; a scanner that reads its source
through `srcbytes` runs its parser on both alike, never its NULL branch. -/
theorem C27_strings (r : ScanRow) (δ : Type) (zero : δ) (parse : Bytes → SR δ) (d : δ) (b : Bytes) :
    r.scan zero parse d (.str b) = parse b ∧ r.scan zero parse d (.bytes b) = parse b := ⟨rfl, rfl⟩

example : (⟨"boolArrayToBoolSlice", "boolarr.go", 51, .assignNil⟩ : ScanRow).scan (δ := Nat) 0
    (fun b => .ok b.length) 7 (.str b!"abc") = .ok 3 := rfl

end Verif.Pgsql
