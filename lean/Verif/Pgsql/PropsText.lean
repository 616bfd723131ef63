import Verif.Pgsql.Lemmas3
/-
Properties C13-C17: text[], hstore and hstore[].
-/
namespace Verif.Pgsql

open Verif Verif.PgServer

/-! ### C13: text[] round trip -/

/-- C13 for `[]string`: whatever the destination held, scanning the produced literal yields the
same slice; nil stays nil, empty stays empty. -/
theorem C13_strings (v : Option (List Bytes)) (d : Option (List Bytes)) :
    textToStrings d (textFromStrings v) = .ok v := by
  cases v with
  | none => rfl
  | some xs =>
    rw [textFromStrings, arrValue_some]
    have := parseStringArray_lit '{' '}' quote1 some xs (fun x _ t _ => strArrLoop_quote1 x t)
    simp [textToStrings, scanReset, this, ofParse, Function.comp_def]

/-- C13 for `[][]byte`, with NULL elements. -/
theorem C13_bytes (v : Option (List (Option Bytes))) (d : Option (List (Option Bytes))) :
    textToBytes d (textFromBytes v) = .ok v := by
  cases v with
  | none => rfl
  | some xs =>
    rw [textFromBytes, arrValue_some]
    have := parseStringArray_lit '{' '}' textElem id xs (fun x _ t _ => strArrLoop_textElem x t)
    simp [textToBytes, scanReset, this, ofParse]

example : textFromBytes (some [some b!"a\"b\\c", none, some b!"", some b!"NULL", some b!"{,}\n"]) =
    some b!"{\"a\\\"b\\\\c\",NULL,\"\",\"NULL\",\"{,}\\\n\"}" := by decide
example : textToBytes none (some b!"{\"a\\\"b\\\\c\",NULL,\"\",\"NULL\",\"{,}\\\n\"}") =
    .ok (some [some b!"a\"b\\c", none, some b!"", some b!"NULL", some b!"{,}\n"]) := by decide

/-! ### C14: the literal means the same list to the server -/

/-- C14 for `[][]byte`. -/
theorem C14_bytes (xs : List (Option Bytes)) :
    ∃ lit, textFromBytes (some xs) = some lit ∧ arrayIn lit = some xs := by
  refine ⟨_, arrValue_some _ _, ?_⟩
  have := arrayIn_lit textElem id xs (fun y _ => by
    cases y with
    | none => exact readsAs_null
    | some s => rw [textElem, quote1_eq]; exact readsAs_quoted _ covers_escaped s)
  simpa using this

/-- C14 for `[]string`. -/
theorem C14_strings (xs : List Bytes) :
    ∃ lit, textFromStrings (some xs) = some lit ∧ arrayIn lit = some (xs.map some) := by
  refine ⟨_, arrValue_some _ _, ?_⟩
  exact arrayIn_lit quote1 some xs (fun y _ => by
    rw [quote1_eq]; exact readsAs_quoted _ covers_escaped y)

example : arrayIn b!"{\"a\\\"},{\",NULL,\"\"}" = some [some b!"a\"},{", none, some b!""] := by decide

/-- A reader that accepts everything would make C14 empty: the server's reader rejects malformed
literals. -/
example : arrayIn b!"}" = none ∧ arrayIn b!"{\"a}" = none ∧ arrayIn b!"{,}" = none ∧
    arrayIn b!"{a}b" = none ∧ arrayIn b!"{{}" = none := by decide

/-! ### C15: scanning what the server sends -/

/-- The element the server prints without quotes starts with NULL. -/
def NullPrefixed (x : Option Bytes) : Prop :=
  ∃ s, x = some s ∧ needsQuote s = false ∧ s.take 4 = b!"NULL"

theorem strArrLoop_elemOut (x : Option Bytes) (hx : ¬ NullPrefixed x) (t : Bytes) (ht : AtComma t) :
    strArrLoop 0 (elemOut x ++ t) = x :: strArrLoop 0 t := by
  cases x with
  | none => exact strArrLoop_null t
  | some s =>
    rw [elemOut]
    by_cases h : needsQuote s = true
    · rw [if_pos h]; exact strArrLoop_quoteOut s t
    · have h' : needsQuote s = false := by simpa using h
      obtain ⟨h1, h2, h3⟩ := plain_of_not_needsQuote s h'
      rw [if_neg h]
      refine strArrLoop_bare s t h2 (fun hc => (h1 _ hc).2.2.2.2.2 rfl) ?_ ?_ ht
      · intro e
        exact (h1 '"' (List.mem_of_mem_head? e)).2.1 rfl
      · intro e
        by_cases hl : 4 ≤ s.length
        · rw [List.take_append_of_le_length hl] at e
          exact hx ⟨s, rfl, h', e⟩
        · -- a shorter element is followed by a comma or nothing
          rcases ht with rfl | ⟨r, rfl⟩
          · rw [List.append_nil] at e
            have := congrArg List.length e
            simp at this; omega
          · have hlt : s.length < 4 := by omega
            have hm : ',' ∈ (s ++ ',' :: r).take 4 := by
              rw [List.take_append]
              apply List.mem_append_right
              rw [show 4 - s.length = (3 - s.length) + 1 by omega]
              simp
            rw [e] at hm
            simp at hm

/-- C15 (part): scanning the server's text of any list without NULL-prefixed elements gives the
list. -/
theorem C15_scan_partial (xs : List (Option Bytes)) (h : ∀ x ∈ xs, ¬ NullPrefixed x)
    (d : Option (List (Option Bytes))) :
    textToBytes d (some (arrayOut xs)) = .ok (some xs) := by
  have := parseStringArray_lit '{' '}' elemOut id xs
    (fun x hx t ht => strArrLoop_elemOut x (h x hx) t ht)
  simp [textToBytes, scanReset, arrayOut, this, ofParse]

/-- C15 (part) for `[]string`: NULL becomes the empty string. -/
theorem C15_strings_partial (xs : List (Option Bytes)) (h : ∀ x ∈ xs, ¬ NullPrefixed x)
    (d : Option (List Bytes)) :
    textToStrings d (some (arrayOut xs)) = .ok (some (xs.map (·.getD []))) := by
  have := parseStringArray_lit '{' '}' elemOut id xs
    (fun x hx t ht => strArrLoop_elemOut x (h x hx) t ht)
  simp [textToStrings, scanReset, arrayOut, this, ofParse]

/-- For one element the condition is exact: it is scanned wrongly if it starts with NULL. -/
theorem C15_single (s : Bytes) (d : Option (List (Option Bytes))) :
    textToBytes d (some (arrayOut [some s])) = .ok (some [some s]) ↔ ¬ NullPrefixed (some s) := by
  constructor
  · rintro h ⟨s', hs, hq, hn⟩
    cases hs
    have e : s = b!"NULL" ++ s.drop 4 := by rw [← hn]; simp
    have hp : parseStringArray ('{' :: (s ++ ['}'])) = some (none :: strArrLoop 0 (s.drop 4)) := by
      simp only [parseStringArray, dropEnds_wrap, Option.bind_eq_bind, Option.bind_some, pure]
      rw [e, strArrLoop_null]; simp
    have hout : arrayOut [some s] = '{' :: (s ++ ['}']) := by
      simp [arrayOut, joinWith, elemOut, hq]
    rw [hout] at h
    simp [textToBytes, scanReset, hp, ofParse] at h
  · intro h
    exact C15_scan_partial [some s] (by simpa using h) d

/-- C15 fails: the server's text for the one element array `{NULLABLE}` is scanned as two
elements, NULL and ABLE. -/
theorem C15_not_scan : ∃ xs : List (Option Bytes),
    textToBytes none (some (arrayOut xs)) = .ok (some [none, some b!"ABLE"]) ∧
    xs = [some b!"NULLABLE"] := by
  refine ⟨_, ?_, rfl⟩
  decide

/-- The server's output reads back as the same list (`arrayOut` and `arrayIn` agree). -/
theorem C15_server_consistent (xs : List (Option Bytes)) : arrayIn (arrayOut xs) = some xs :=
  arrayIn_arrayOut xs

example : ¬ NullPrefixed (some b!"null") ∧ ¬ NullPrefixed (some b!"NULL") ∧
    textToBytes none (some (arrayOut [some b!"a b", none, some b!"NULL", some b!"x", some b!""])) =
      .ok (some [some b!"a b", none, some b!"NULL", some b!"x", some b!""]) := by
  refine ⟨?_, ?_, by decide⟩
  · rintro ⟨s, hs, hq, -⟩; cases hs; revert hq; decide
  · rintro ⟨s, hs, hq, -⟩; cases hs; revert hq; decide

/-! ### C16: hstore -/

theorem lookup_iff {ν : Type} (m : List (Bytes × ν)) (h : (m.map (·.1)).Nodup) (k : Bytes) (v : ν) :
    m.lookup k = some v ↔ (k, v) ∈ m := by
  induction m with
  | nil => simp
  | cons e m ih =>
    obtain ⟨k', v'⟩ := e
    simp only [List.map_cons, List.nodup_cons] at h
    rw [List.lookup_cons]
    by_cases hk : k = k'
    · subst hk
      simp only [beq_self_eq_true]
      constructor
      · rintro ⟨⟩; simp
      · intro hm
        rcases List.mem_cons.mp hm with e | hm
        · cases e; rfl
        · exact absurd (List.mem_map_of_mem (f := (·.1)) hm) h.1
    · have : (k == k') = false := by simpa using hk
      simp only [this]
      rw [ih h.2]
      simp [hk]

theorem lookup_perm {ν : Type} {m m' : List (Bytes × ν)} (h : (m.map (·.1)).Nodup) (hp : m'.Perm m)
    (k : Bytes) : m'.lookup k = m.lookup k := by
  have h' : (m'.map (·.1)).Nodup := (hp.map (·.1)).nodup_iff.mpr h
  cases hm : m.lookup k with
  | some v => rw [lookup_iff _ h', hp.mem_iff, ← lookup_iff _ h, hm]
  | none =>
    cases hm' : m'.lookup k with
    | none => rfl
    | some v =>
      rw [lookup_iff _ h', hp.mem_iff, ← lookup_iff _ h, hm] at hm'
      cases hm'

/-- C16 for `map[string]string`: for every map `m` and every order `es` in which its entries are
visited, the scanned map has the same entries. -/
theorem C16_map (m es : List (Bytes × Bytes)) (hm : (m.map (·.1)).Nodup) (hes : es.Perm m)
    (d : Option (List (Bytes × Bytes))) :
    ∃ m', hstoreToMap d (hstoreFromMap (some es)) = .ok (some m') ∧ m'.Perm m ∧
      ∀ k, m'.lookup k = m.lookup k := by
  refine ⟨es, ?_, hes, lookup_perm hm hes⟩
  have hes' : (es.map (·.1)).Nodup := (hes.map (·.1)).nodup_iff.mpr hm
  have h := parseHStore_join escaped covers_escaped [] (by simp) (by simp)
    (es.map fun e => (e.1, some e.2)) quote1 quote1_eq
  simp only [List.map_map] at h
  simp only [hstoreToMap, hstoreFromMap, scanKeep, dropLastComma_flatMap]
  have e2 : (es.map fun e => quote1 e.1 ++ b!"=>" ++ quote1 e.2) = es.map
      ((fun e : Bytes × Option Bytes => quote1 e.1 ++ b!"=>" ++ hsVal quote1 e.2) ∘
        fun e => (e.1, some e.2)) := rfl
  rw [e2, h]
  simp only [ofParse, Res.map_ok]
  have := fillMap_pairs es hes'
  simpa [Function.comp_def] using congrArg (fun x => (Res.ok (some x) : SR _)) this

/-- A nil map becomes NULL, and NULL leaves the destination alone. -/
theorem C16_nil (d : Option (List (Bytes × Bytes))) : hstoreToMap d (hstoreFromMap none) = .ok d := rfl

/-- C16 for nullable values (part): the scanned map has the same entries, except that an empty
string comes back as NULL. -/
theorem C16_ptrMap_partial (m es : List (Bytes × Option Bytes)) (hm : (m.map (·.1)).Nodup)
    (hes : es.Perm m) (d : Option (List (Bytes × Option Bytes))) :
    ∃ m', hstoreToPtrMap d (hstoreFromPtrMap (some es)) = .ok (some m') ∧
      m'.Perm (m.map nullEmpty) ∧
      ∀ k, m'.lookup k = (m.lookup k).map fun v => if v = some [] then none else v := by
  have hes' : (es.map (·.1)).Nodup := (hes.map (·.1)).nodup_iff.mpr hm
  have hn : ((m.map nullEmpty).map (·.1)).Nodup := by rw [List.map_map]; exact hm
  refine ⟨es.map nullEmpty, ?_, hes.map _, fun k => ?_⟩
  · have h := parseHStore_join escaped covers_escaped [] (by simp) (by simp) es quote1 quote1_eq
    simp only [hstoreToPtrMap, hstoreFromPtrMap, scanKeep]
    have e1 : (fun e : Bytes × Option Bytes => quote1 e.1 ++ b!"=>" ++ hsVal quote1 e.2 ++ [',']) =
        fun e => (quote1 e.1 ++ b!"=>" ++ hsVal quote1 e.2) ++ [','] := rfl
    rw [e1, dropLastComma_flatMap, h]
    simp only [ofParse, Res.map_ok]
    rw [fillPtrMap_pairs es hes']
  · rw [lookup_perm hn (hes.map _)]
    clear hes hes' hn hm
    induction m with
    | nil => rfl
    | cons e m ih =>
      obtain ⟨k', v⟩ := e
      rw [List.map_cons, nullEmpty, List.lookup_cons, List.lookup_cons]
      by_cases hk : (k == k') = true
      · simp only [hk, Option.map_some]
        rcases v with _ | _ | _ <;> simp [toOpt]
      · have : (k == k') = false := by simpa using hk
        simp only [this, ih]

/-- With no empty value the round trip is exact. -/
theorem C16_ptrMap_exact_partial (m es : List (Bytes × Option Bytes)) (hm : (m.map (·.1)).Nodup)
    (hes : es.Perm m) (hv : ∀ e ∈ m, e.2 ≠ some []) (d : Option (List (Bytes × Option Bytes))) :
    ∃ m', hstoreToPtrMap d (hstoreFromPtrMap (some es)) = .ok (some m') ∧ m'.Perm m := by
  obtain ⟨m', h1, h2, -⟩ := C16_ptrMap_partial m es hm hes d
  refine ⟨m', h1, ?_⟩
  have : m.map nullEmpty = m := by
    conv => rhs; rw [← List.map_id m]
    apply List.map_congr_left
    rintro ⟨k, v⟩ he
    have := hv _ he
    rcases v with _ | _ | _ <;> simp_all [nullEmpty, toOpt]
  rwa [this] at h2

/-- C16 fails for nullable values: a present empty string is scanned as NULL. -/
theorem C16_not_ptrMap : ∃ m : List (Bytes × Option Bytes),
    hstoreToPtrMap none (hstoreFromPtrMap (some m)) = .ok (some [(b!"k", none)]) ∧
    m = [(b!"k", some [])] := ⟨_, by decide, rfl⟩

/-- The literal means the same entries to the server (even the empty string). -/
theorem C16_server_in (es : List (Bytes × Option Bytes)) :
    ∃ lit, hstoreFromPtrMap (some es) = some lit ∧ hstoreIn lit = some es := by
  refine ⟨_, rfl, ?_⟩
  have e1 : (fun e : Bytes × Option Bytes => quote1 e.1 ++ b!"=>" ++ hsVal quote1 e.2 ++ [',']) =
      fun e => (pairTxt escaped e) ++ [','] := by
    funext e; rw [pairTxt_eq escaped quote1 quote1_eq]
  rw [e1, dropLastComma_flatMap]
  exact hstoreIn_lit escaped covers_escaped [] (by simp) es

/-- The same for `map[string]string`. -/
theorem C16_server_in_map (es : List (Bytes × Bytes)) :
    ∃ lit, hstoreFromMap (some es) = some lit ∧
      hstoreIn lit = some (es.map fun e => (e.1, some e.2)) := by
  refine ⟨_, rfl, ?_⟩
  have e1 : (fun e : Bytes × Bytes => quote1 e.1 ++ b!"=>" ++ quote1 e.2 ++ [',']) =
      fun e => (pairTxt escaped (e.1, some e.2)) ++ [','] := by
    funext e; rw [← pairTxt_eq escaped quote1 quote1_eq]; rfl
  rw [e1, dropLastComma_flatMap]
  have := hstoreIn_lit escaped covers_escaped [] (by simp) (es.map fun e => (e.1, some e.2))
  simpa [List.map_map, Function.comp_def] using this

/-- Scanning what the server sends for the entries `es` (part: empty strings become NULL). -/
theorem C16_server_out_partial (es : List (Bytes × Option Bytes)) (h : (es.map (·.1)).Nodup)
    (d : Option (List (Bytes × Option Bytes))) :
    hstoreToPtrMap d (some (hstoreOut es)) =
      .ok (some (es.map fun e => (e.1, if e.2 = some [] then none else e.2))) := by
  have hj := parseHStore_join _ covers_out b!" " (by decide) (by decide) es quoteOut quoteOut_eq
  have e1 : hstoreOut es =
      joinWith (',' :: b!" ") (es.map fun e => quoteOut e.1 ++ b!"=>" ++ hsVal quoteOut e.2) := by
    rw [hstoreOut]; congr 2
  simp only [hstoreToPtrMap, scanKeep, e1, hj, ofParse, Res.map_ok]
  rw [fillPtrMap_pairs es h]
  congr 2
  apply List.map_congr_left
  rintro ⟨k, v⟩ _
  rcases v with _ | _ | _ <;> simp [nullEmpty, toOpt]

/-- Scanning what the server sends into `map[string]string`: NULL becomes the empty string,
everything else is exact. -/
theorem C16_server_out_map (es : List (Bytes × Option Bytes)) (h : (es.map (·.1)).Nodup)
    (d : Option (List (Bytes × Bytes))) :
    hstoreToMap d (some (hstoreOut es)) = .ok (some (es.map fun e => (e.1, e.2.getD []))) := by
  have hj := parseHStore_join _ covers_out b!" " (by decide) (by decide) es quoteOut quoteOut_eq
  have e1 : hstoreOut es =
      joinWith (',' :: b!" ") (es.map fun e => quoteOut e.1 ++ b!"=>" ++ hsVal quoteOut e.2) := by
    rw [hstoreOut]; congr 2
  simp only [hstoreToMap, scanKeep, e1, hj, ofParse, Res.map_ok]
  have := fillMap_pairs (es.map fun e => (e.1, e.2.getD [])) (by rw [List.map_map]; exact h)
  rw [← this]
  unfold fillMap
  rw [List.map_map, List.foldl_map, List.foldl_map]
  congr 3
  funext m e
  rcases e with ⟨k, _ | _ | _⟩ <;> simp [toOpt]

example : hstoreFromPtrMap (some [(b!"a\"", some b!"N,=>"), (b!"", none)]) =
    some b!"\"a\\\"\"=>\"N,=>\",\"\"=>NULL" := by decide
example : hstoreToPtrMap none (some b!"\"a\\\"\"=>\"N,=>\", \"\"=>NULL, \"z\"=>\"\\\\\"") =
    .ok (some [(b!"a\"", some b!"N,=>"), (b!"", none), (b!"z", some b!"\\")]) := by decide

/-! ### C17: hstore[] -/

/-- C17 for nullable values (part): for every list of maps, each visited in an arbitrary order,
the scanned maps have the same entries except that empty strings come back as NULL. -/
theorem C17_ptrMaps_partial (ms : List (Option (List (Bytes × Option Bytes))))
    (h : ∀ es, some es ∈ ms → (es.map (·.1)).Nodup)
    (d : Option (List (Option (List (Bytes × Option Bytes))))) :
    hstoreArrToPtrMaps d (hstoreArrFromPtrMaps (some ms)) =
      .ok (some (ms.map (·.map (·.map fun e => (e.1, if e.2 = some [] then none else e.2))))) := by
  rw [hstoreArrFromPtrMaps, arrValue_some]
  have hf : hsaElem = hsaText escaped [] := by funext m; exact hsaElem_eq m
  rw [hf]
  simp only [hstoreArrToPtrMaps, scanKeep]
  rw [parseHStoreArr_lit escaped covers_escaped [] (by simp)]
  simp only [ofParse, Res.map_ok, List.map_map]
  congr 2
  apply List.map_congr_left
  intro m hm
  cases m with
  | none => rfl
  | some es =>
    simp only [Function.comp, Option.map_some]
    rw [fillPtrMap_pairs es (h es hm)]
    congr 1
    apply List.map_congr_left
    rintro ⟨k, v⟩ _
    rcases v with _ | _ | _ <;> simp [nullEmpty, toOpt]

theorem fillMap_pairs' (es : List (Bytes × Option Bytes)) (h : (es.map (·.1)).Nodup) :
    fillMap (es.map fun e => (toOpt e.1, e.2.bind toOpt)) = es.map fun e => (e.1, e.2.getD []) := by
  have := fillMap_pairs (es.map fun e => (e.1, e.2.getD [])) (by rw [List.map_map]; exact h)
  rw [← this]
  unfold fillMap
  rw [List.map_map, List.foldl_map, List.foldl_map]
  congr 1
  funext m e
  rcases e with ⟨k, _ | _ | _⟩ <;> simp [toOpt]

/-- C17 for `[]map[string]string`: exact, for nil maps too. -/
theorem C17_maps (ms : List (Option (List (Bytes × Bytes))))
    (h : ∀ es, some es ∈ ms → (es.map (·.1)).Nodup)
    (d : Option (List (Option (List (Bytes × Bytes))))) :
    hstoreArrToMaps d (hstoreArrFromMaps (some ms)) = .ok (some ms) := by
  rw [hstoreArrFromMaps, arrValue_some]
  have hf : (fun m : Option (List (Bytes × Bytes)) => hsaElem (m.map (·.map fun e => (e.1, some e.2)))) =
      (hsaText escaped []) ∘ fun m => m.map (·.map fun e => (e.1, some e.2)) := by
    funext m; exact hsaElem_eq _
  rw [hf, ← List.map_map]
  simp only [hstoreArrToMaps, scanKeep]
  rw [parseHStoreArr_lit escaped covers_escaped [] (by simp)]
  simp only [ofParse, Res.map_ok, List.map_map]
  congr 2
  conv => rhs; rw [← List.map_id ms]
  apply List.map_congr_left
  intro m hm
  cases m with
  | none => rfl
  | some es =>
    simp only [Function.comp, Option.map_some, id]
    rw [fillMap_pairs' _ (by rw [List.map_map]; exact h es hm)]
    simp [Function.comp_def]

/-- C17 fails for nullable values: a present empty string is scanned as NULL. -/
theorem C17_not_ptrMaps : ∃ ms : List (Option (List (Bytes × Option Bytes))),
    hstoreArrToPtrMaps none (hstoreArrFromPtrMaps (some ms)) = .ok (some [some [(b!"k", none)]]) ∧
    ms = [some [(b!"k", some [])]] := ⟨_, rfl, rfl⟩

/-- The literal means the same list of maps to the server: reading the array and then each
element as an hstore gives the entries. -/
theorem C17_server_in (ms : List (Option (List (Bytes × Option Bytes)))) :
    ∃ lit texts, hstoreArrFromPtrMaps (some ms) = some lit ∧ arrayIn lit = some texts ∧
      texts.map (·.map hstoreIn) = ms.map (·.map some) := by
  refine ⟨_, ms.map (·.map fun es => joinWith b!"," (es.map (pairTxt escaped))),
    arrValue_some _ _, ?_, ?_⟩
  · have hf : hsaElem = hsaText escaped [] := by funext m; exact hsaElem_eq m
    rw [hf]
    exact arrayIn_lit _ _ ms (fun m _ => readsAs_hsaText escaped covers_escaped [] (by simp) (by simp) m)
  · rw [List.map_map]
    apply List.map_congr_left
    intro m _
    cases m with
    | none => rfl
    | some es => simp [hstoreIn_lit escaped covers_escaped [] (by simp) es]

/-- Scanning the server's text of an hstore[] (part: empty strings become NULL). -/
theorem C17_server_out_partial (ms : List (Option (List (Bytes × Option Bytes))))
    (h : ∀ es, some es ∈ ms → (es.map (·.1)).Nodup)
    (d : Option (List (Option (List (Bytes × Option Bytes))))) :
    hstoreArrToPtrMaps d (some (arrayOut (ms.map (·.map hstoreOut)))) =
      .ok (some (ms.map (·.map (·.map fun e => (e.1, if e.2 = some [] then none else e.2))))) := by
  have hf : (elemOut ∘ fun m : Option (List (Bytes × Option Bytes)) => m.map hstoreOut) =
      hsaText pOut b!" " := by
    funext m
    cases m with
    | none => rfl
    | some es => exact elemOut_hstoreOut es
  simp only [hstoreArrToPtrMaps, scanKeep, arrayOut, List.map_map, hf, List.cons_append]
  have := parseHStoreArr_lit pOut covers_out b!" " (by decide) '{' '}' ms
  rw [this]
  simp only [ofParse, Res.map_ok, List.map_map]
  congr 2
  apply List.map_congr_left
  intro m hm
  cases m with
  | none => rfl
  | some es =>
    simp only [Function.comp, Option.map_some]
    rw [fillPtrMap_pairs es (h es hm)]
    congr 1
    apply List.map_congr_left
    rintro ⟨k, v⟩ _
    rcases v with _ | _ | _ <;> simp [nullEmpty, toOpt]

example : hstoreArrFromPtrMaps (some [some [(b!"a\"", some b!"\\"), (b!"b", none)], none, some []]) =
    some b!"{\"\\\"a\\\\\\\"\\\"=>\\\"\\\\\\\\\\\",\\\"b\\\"=>NULL\",NULL,\"\"}" := by decide

end Verif.Pgsql
