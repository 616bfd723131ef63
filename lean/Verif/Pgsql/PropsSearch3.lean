import Verif.Pgsql.PropsSearch2
/-
C75, continued: tsquery[], json[], xml[], single characters.
-/
namespace Verif.Pgsql

open Verif Verif.PgServer

/-! ### tsquery[] -/

theorem tsQueryBytesSize_eq (xs : List (Option Bytes)) (h : xs ≠ []) :
    tsQueryBytesSize xs = (joinWith b!"," (xs.map tsQueryElem)).length + 2 := by
  rw [tsQueryBytesSize, foldl_len,
    joinWith_map_length _ _ h]
  have : (xs.map fun x => (tsQueryElem x).length).sum =
      (xs.map tsQueryElemSize).sum + xs.length * 2 := by
    clear h
    induction xs with
    | nil => rfl
    | cons x xs ih =>
      simp only [List.map_cons, List.sum_cons, List.length_cons, ih]
      cases x <;> simp [tsQueryElem, tsQueryElemSize] <;> omega
  omega

theorem tsQuerySize_eq (xs : List Bytes) (h : xs ≠ []) :
    tsQuerySize xs = (joinWith b!"," (xs.map fun s => tsQueryElem (some s))).length + 2 := by
  have := tsQueryBytesSize_eq (xs.map some) (by simpa using h)
  rw [List.map_map] at this
  rw [show (fun s => tsQueryElem (some s)) = tsQueryElem ∘ some from rfl, ← this, tsQuerySize,
    tsQueryBytesSize, List.foldl_map, List.length_map]
  rfl

/-- No character of the text needs an escape inside double quotes. -/
def NoEscape (s : Bytes) : Prop := '"' ∉ s ∧ '\\' ∉ s

theorem strArrLoop_tsQuery (x : Option Bytes) (h : ∀ s, x = some s → NoEscape s) (t : Bytes) :
    strArrLoop 0 (tsQueryElem x ++ t) = x :: strArrLoop 0 t := by
  cases x with
  | none => exact strArrLoop_null t
  | some s =>
    have := strArrLoop_quoted _ covers_out s t
    rw [escWith_none] at this
    · simpa [tsQueryElem] using this
    · intro c hc
      rw [decide_eq_false_iff_not]
      rintro (rfl | rfl)
      · exact (h s rfl).1 hc
      · exact (h s rfl).2 hc

/-- **C75** The text written for a tsquery[]: the elements between double quotes, as they are, and NULL; the
buffer has the right size. -/
theorem C75_query_text (xs : List (Option Bytes)) (ss : List Bytes) :
    tsQueryFromBytes (some xs) = .text ('{' :: (joinWith b!"," (xs.map fun x =>
      match x with
      | none => b!"NULL"
      | some s => '"' :: (s ++ ['"'])) ++ ['}'])) ∧
    tsQueryFromStrings (some ss) =
      .text ('{' :: (joinWith b!"," (ss.map fun s => '"' :: (s ++ ['"'])) ++ ['}'])) ∧
    tsQueryFromBytes none = .null ∧ tsQueryFromStrings none = .null := by
  refine ⟨?_, posValue_some _ _ _ (tsQuerySize_eq ss), rfl, rfl⟩
  rw [tsQueryFromBytes, posValue_some _ _ _ (tsQueryBytesSize_eq xs)]
  congr 3

/-- **C75** A written `[]string` is scanned as the same slice if no element has a double quote or a
backslash in it. -/
theorem C75_query_strings_partial (v : Option (List Bytes)) (d : Option (List Bytes))
    (h : ∀ xs, v = some xs → ∀ x ∈ xs, NoEscape x) :
    (tsQueryFromStrings v).scan (tsQueryToStrings d) = .ok v := by
  cases v with
  | none => rfl
  | some xs =>
    rw [tsQueryFromStrings, posValue_some _ _ _ (tsQuerySize_eq xs), Val.scan]
    have := parseStringArray_lit '{' '}' (fun s => tsQueryElem (some s)) some xs
      (fun x hx t _ => strArrLoop_tsQuery (some x) (by rintro s ⟨⟩; exact h xs rfl x hx) t)
    simp [tsQueryToStrings, scanReset, this, ofParse, Function.comp_def]

/-- **C75** A `[][]byte` is scanned with every NULL turned into an empty element and every element of four
bytes that starts with `N` turned into nil. -/
theorem C75_query_bytes_read (xs : List (Option Bytes)) (d : Option (List (Option Bytes)))
    (h : ∀ s, some s ∈ xs → NoEscape s) :
    (tsQueryFromBytes (some xs)).scan (tsQueryToBytes d) = .ok (some (xs.map fun x =>
      match x with
      | none => some []
      | some s => if s.length = 4 ∧ s.head? = some 'N' then none else some s)) := by
  rw [tsQueryFromBytes, posValue_some _ _ _ (tsQueryBytesSize_eq xs), Val.scan]
  have := parseStringArray_lit '{' '}' tsQueryElem id xs
      (fun x hx t _ => strArrLoop_tsQuery x (by rintro s rfl; exact h s hx) t)
  rw [List.map_id] at this
  simp only [tsQueryToBytes, scanReset, this, ofParse, Res.map]
  congr 2
  refine List.map_congr_left fun x _ => ?_
  cases x <;> rfl

/-- **C75** It is the same slice exactly if it has no nil element and no element of four bytes
that starts with `N`. -/
theorem C75_query_bytes (xs : List (Option Bytes)) (d : Option (List (Option Bytes)))
    (h : ∀ s, some s ∈ xs → NoEscape s) :
    (tsQueryFromBytes (some xs)).scan (tsQueryToBytes d) = .ok (some xs) ↔
      none ∉ xs ∧ ∀ s, some s ∈ xs → ¬ (s.length = 4 ∧ s.head? = some 'N') := by
  rw [C75_query_bytes_read xs d h, Res.ok.injEq, Option.some.injEq]
  clear h
  induction xs with
  | nil => simp
  | cons x xs ih =>
    rw [List.map_cons, List.cons.injEq, ih]
    cases x with
    | none => simp
    | some s =>
      simp only [List.mem_cons, Option.some.injEq, reduceCtorEq, false_or]
      constructor
      · rintro ⟨h1, h2, h3⟩
        refine ⟨h2, ?_⟩
        rintro t (rfl | ht)
        · intro hc
          rw [if_pos hc] at h1
          cases h1
        · exact h3 t ht
      · rintro ⟨h2, h3⟩
        refine ⟨?_, h2, fun t ht => h3 t (.inr ht)⟩
        rw [if_neg (h3 s (.inl rfl))]

/-- **C75** NULL is scanned as an empty element, and `'N'` is not what makes an element NULL. -/
theorem C75_not_query_bytes :
    (tsQueryFromBytes (some [none])).scan (tsQueryToBytes none) = .ok (some [some []]) ∧
    (tsQueryFromBytes (some [some b!"None"])).scan (tsQueryToBytes none) = .ok (some [none]) ∧
    (tsQueryFromStrings (some [b!"a\"b"])).scan (tsQueryToStrings none) ≠ .ok (some [b!"a\"b"]) ∧
    (tsQueryFromStrings (some [b!"a\\b"])).scan (tsQueryToStrings none) = .ok (some [b!"ab"]) :=
  ⟨by decide +kernel, by decide +kernel, by decide +kernel, by decide +kernel⟩

/-- **C75** The server reads the elements of the literal as they are, if none has a double quote or
a backslash in it. -/
theorem C75_query_server_in_partial (xs : List (Option Bytes)) (h : ∀ s, some s ∈ xs → NoEscape s) :
    ∃ lit, tsQueryFromBytes (some xs) = .text lit ∧ arrayIn lit = some xs := by
  refine ⟨_, posValue_some _ _ _ (tsQueryBytesSize_eq xs), ?_⟩
  have := arrayIn_lit tsQueryElem id xs (fun x hx => by
    cases x with
    | none => exact readsAs_null
    | some s =>
      have := readsAs_wrapped s (h s hx).1 (h s hx).2
      simpa [tsQueryElem] using this)
  simpa using this

/-- **C75** The query `'it"s'` makes the literal malformed. -/
theorem C75_not_query_server_in : ∃ lit,
    tsQueryFromStrings (some [b!"'it\"s'"]) = .text lit ∧ arrayIn lit = none :=
  ⟨_, rfl, by decide +kernel⟩

/-- **C75** The server's text of a tsquery[] is scanned element by element (the text of a tsquery
is empty or starts with a quote, a parenthesis or `!`, never with `N`); NULL becomes an empty element
in both destinations. -/
theorem C75_query_server_out (xs : List (Option Bytes)) (h : ∀ s, some s ∈ xs → s.head? ≠ some 'N')
    (d : Option (List Bytes)) (d' : Option (List (Option Bytes))) :
    tsQueryToStrings d (some (arrayOut xs)) = .ok (some (xs.map (·.getD []))) ∧
    tsQueryToBytes d' (some (arrayOut xs)) = .ok (some (xs.map fun x => some (x.getD []))) := by
  have hn : ∀ x ∈ xs, ¬ NullPrefixed x := by
    rintro x hx ⟨s, rfl, -, hs⟩
    refine h s hx ?_
    cases s with
    | nil => simp at hs
    | cons c s => simp at hs; simp [hs.1]
  refine ⟨C15_strings_partial xs hn d, ?_⟩
  have := parseStringArray_lit '{' '}' elemOut id xs
    (fun x hx t ht => strArrLoop_elemOut x (hn x hx) t ht)
  rw [List.map_id] at this
  have e : arrayOut xs = '{' :: (joinWith b!"," (xs.map elemOut) ++ ['}']) := rfl
  simp only [tsQueryToBytes, scanReset, e, this, ofParse, Res.map]
  congr 2
  refine List.map_congr_left fun x hx => ?_
  rw [tsQueryBytes, if_neg]
  rintro ⟨-, hh⟩
  cases x with
  | none => simp at hh
  | some s => exact h s hx hh

example : tsQueryFromBytes (some [some b!"'fat' & 'rat'", none]) = .text b!"{\"'fat' & 'rat'\",NULL}" ∧
    tsQueryToBytes none (some b!"{\"'fat' & 'rat'\",'cat',NULL}") =
      .ok (some [some b!"'fat' & 'rat'", some b!"'cat'", some []]) ∧
    NoEscape b!"'fat' & 'rat'" := ⟨by decide +kernel, by decide +kernel, by constructor <;> decide⟩

/-! ### json[], xml[] -/

theorem jsonFromBytes_eq : jsonFromBytes = textFromBytes := by
  funext v
  cases v with
  | none => rfl
  | some xs =>
    rw [jsonFromBytes, textFromBytes, arrValue, arrBody]
    have : jsonElem = fun x => textElem x ++ [','] := by
      funext x
      cases x <;> rfl
    rw [this]

theorem jsonToBytes_eq : jsonToBytes = textToBytes := by
  have : jsonCopy = id := by
    funext e; cases e <;> rfl
  funext d v
  cases v with
  | none => rfl
  | some b =>
    rw [jsonToBytes, this, textToBytes, scanReset, scanReset]
    cases parseStringArray b <;> simp [ofParse, Res.map]

/-- **C75** Every json[] and xml[] is scanned as it was written, and the server reads the same
elements. -/
theorem C75_json_round_trip (v d : Option (List (Option Bytes))) (xs : List (Option Bytes)) :
    jsonToBytes d (jsonFromBytes v) = .ok v ∧
    ∃ lit, jsonFromBytes (some xs) = some lit ∧ arrayIn lit = some xs := by
  rw [jsonFromBytes_eq, jsonToBytes_eq]
  exact ⟨C13_bytes v d, C14_bytes xs⟩

/-- **C75** The server's text of a json[] or xml[] is scanned element by element, when no element
starts with `NULL` (no JSON document and no XML element does). -/
theorem C75_json_server (xs : List (Option Bytes)) (h : ∀ s, some s ∈ xs → s.take 4 ≠ b!"NULL")
    (d : Option (List (Option Bytes))) :
    jsonToBytes d (some (arrayOut xs)) = .ok (some xs) := by
  rw [jsonToBytes_eq]
  refine C15_scan_partial xs ?_ d
  rintro x hx ⟨s, rfl, -, hs⟩
  exact h s hx hs

example : jsonToBytes none (some (arrayOut [some b!"{\"a\": [1, \"x\\\\y\"]}", none, some b!"null"])) =
    .ok (some [some b!"{\"a\": [1, \"x\\\\y\"]}", none, some b!"null"]) := by decide +kernel

/-! ### Single characters -/

/-- **C75** A byte is scanned as it was written; NULL and the empty text leave the destination
alone; of a longer text the first byte is taken. -/
theorem C75_char_byte (b d : Char) (t : Bytes) :
    charToByte d (some (charFromByte b ++ t)) = b ∧ charToByte d (some []) = d ∧
    charToByte d none = d := by
  simp [charToByte, charFromByte]

theorem utf8_bytes (r : Char) :
    (utf8 r).map (fun c => UInt8.ofNat c.toNat) = String.utf8EncodeChar r := by
  rw [utf8, List.map_map]
  conv => rhs; rw [← List.map_id (String.utf8EncodeChar r)]
  refine List.map_congr_left fun b _ => ?_
  have hb := b.toNat_lt
  simp only [Function.comp_apply, id]
  have : (Char.ofNat b.toNat).toNat = b.toNat := by
    have hv : b.toNat.isValidChar := Or.inl (by omega)
    simp [Char.ofNat, hv, Char.toNat, Char.ofNatAux, UInt32.toNat]
  rw [this]
  exact UInt8.ofNat_toNat

/-- **C75** A rune is scanned as it was written, whatever its encoding and whatever follows. -/
theorem C75_char_rune (r d : Char) (t : Bytes) :
    charToRune d (some (charFromRune r ++ t)) = r ∧ charToRune d (some []) = d ∧
    charToRune d none = d := by
  refine ⟨?_, rfl, rfl⟩
  have hl : (charFromRune r ++ t).length > 0 := by
    have := String.length_utf8EncodeChar r
    have := r.utf8Size_pos
    simp [charFromRune, utf8]; omega
  rw [charToRune, if_pos hl, decodeRune, List.map_append, charFromRune, utf8_bytes]
  have e : (⟨(String.utf8EncodeChar r ++ t.map fun c => UInt8.ofNat c.toNat).toArray⟩ : ByteArray) =
      (String.utf8EncodeChar r).toByteArray ++ (t.map fun c => UInt8.ofNat c.toNat).toByteArray := by
    rw [← List.toByteArray_append]
    ext1
    simp
  rw [e, ByteArray.utf8DecodeChar?_utf8EncodeChar_append]
  rfl

/-- **C75** A rune outside of ASCII is not scanned into a byte. -/
theorem C75_not_char_mixed : charToByte 'x' (some (charFromRune 'é')) ≠ 'é' ∧
    charToRune 'x' (some (charFromByte 'é')) = '�' := by decide +kernel

end Verif.Pgsql
