import Verif.Pgsql.PropsTimeArr2

/- C74: ranges of dates, arrays of ranges. -/
namespace Verif.Pgsql

open Verif PgServer

/-! ### Ranges of dates -/

/-- What is read back for a bound: the zero time stands for no bound. -/
def dateBack (t : Time) : Time := if t.isZero then zeroTime else dateForm.kept t

def dateBoundText (t : Time) : Bytes := if t.isZero then [] else t.format dateLayout

theorem dateRangeValue_eq (v : Time × Time) :
    dateRangeValue v = (if v.1.isZero then '(' else '[') :: (dateBoundText v.1 ++ [','] ++ dateBoundText v.2 ++ [')']) := by
  unfold dateRangeValue dateBoundText
  cases v.1.isZero <;> cases v.2.isZero <;> simp

theorem dateBoundText_stamp (t : Time) (c : Char) (h : c ∈ dateBoundText t) : stampChar c = true := by
  unfold dateBoundText at h
  split at h
  · cases h
  · exact format_stamp dateForm (by decide) t c h

theorem dateBoundText_free (t : Time) (c : Char) (hc : stampChar c = false) : c ∉ dateBoundText t :=
  stamp_free (dateBoundText_stamp t) c hc

theorem length_pos_ne {s : Bytes} (h : s ≠ []) : s.length > 0 := by
  cases s with
  | nil => exact absurd rfl h
  | cons => simp

theorem dateBound_back (t : Time) (h : dateForm.Fits t) : dateBound (dateBoundText t) = .ok (dateBack t) := by
  unfold dateBoundText dateBack
  split
  · rfl
  · have hn : t.format dateLayout ≠ [] := format_ne_nil dateForm (by decide) t
    rw [dateBound, if_pos (length_pos_ne hn)]
    exact h.parse (by decide)

theorem dateRange_parse (v : Time × Time) (h1 : dateForm.Fits v.1) (h2 : dateForm.Fits v.2) :
    (ofParse (parseRange (dateRangeValue v))).bind (boundsBy dateBound) = .ok (dateBack v.1, dateBack v.2) := by
  rw [dateRangeValue_eq, parseRange_span _ _ _ _ (dateBoundText_free _ ',' (by decide))]
  simp [ofParse, Res.bind, boundsBy, dateBound_back _ h1, dateBound_back _ h2, Res.map]

/-- **C74** daterange: the dates that were written are read back; the zero time is no bound. -/
theorem C74_daterange (v d : Time × Time) (h1 : dateForm.Fits v.1) (h2 : dateForm.Fits v.2) :
    dateRangeScan d (some (dateRangeValue v)) = .ok (dateBack v.1, dateBack v.2) :=
  dateRange_parse v h1 h2

/-- The bound that the server gets. -/
def dateBoundServer (inc : Bool) (t : Time) : Option (Bytes × Bool) :=
  if t.isZero then none else some (t.format dateLayout, inc)

theorem textBoundIn_date (inc : Bool) (t : Time) : textBoundIn inc (dateBoundText t) = dateBoundServer inc t := by
  unfold dateBoundText dateBoundServer
  split
  · rfl
  · have hn := format_ne_nil dateForm (by decide) t
    have hq := format_free dateForm (by decide) t '"' (by decide)
    change t.format dateLayout ≠ [] at hn
    change '"' ∉ t.format dateLayout at hq
    rw [textBoundIn, if_neg (by have := length_pos_ne hn; omega), if_neg]
    rintro ⟨-, h, -⟩
    exact hq (List.mem_of_mem_head? (by rw [h]; rfl))

/-- **C74** The server reads the bounds, the first inclusive and the second exclusive; none for the zero time. -/
theorem C74_daterange_server_in (v : Time × Time) :
    textRangeIn (dateRangeValue v) = some (.span (dateBoundServer true v.1) (dateBoundServer false v.2)) := by
  rw [dateRangeValue_eq, textRangeIn_span _ _ _ _ (by split <;> simp) (.inr rfl)
    (dateBoundText_free _ ',' (by decide)) (dateBoundText_free _ ',' (by decide)), textBoundIn_date, textBoundIn_date]
  have e : decide ((')' : Char) = ']') = false := by decide
  rw [e]
  congr 2
  unfold dateBoundServer
  cases v.1.isZero <;> rfl

theorem dateOut_stamp {d : Date} (h : Readable d) : (∀ c ∈ dateOut d, stampChar c = true) ∧ ' ' ∉ dateOut d ∧
    dateOut d ≠ [] ∧ parseTime dateLayout (dateOut d) = .ok (goTime d midnight 0) := by
  refine ⟨?_, ?_, ?_, ?_⟩
  · intro c hc
    rw [dateOut_ad h.2.1] at hc
    exact stamp_date_char hc
  · intro hc
    rw [dateOut_ad h.2.1] at hc
    rcases dateBody_chars d _ hc with e | e <;> exact absurd e (by decide)
  · rw [dateOut_ad h.2.1]
    simp only [dateBody, List.append_assoc]
    exact append_ne_nil (num_ne_nil _ _)
  · have := (C73_scan_date d h.1).1
    rw [if_pos h.2] at this
    exact this

theorem bare_boundOut {s : Bytes} (h : ∀ c ∈ s, stampChar c = true) (hs : ' ' ∉ s) (h0 : s ≠ []) : boundOut s = s := by
  have hp := stamp_plain s h hs
  rw [boundOut, if_neg]
  rw [Bool.or_eq_true]
  rintro (e | e)
  · exact h0 (List.isEmpty_iff.1 e)
  · obtain ⟨c, hc, e⟩ := List.any_eq_true.1 e
    obtain ⟨h1, h2, h3, -, -, h6⟩ := hp c hc
    have hh := h c hc
    have key : ∀ x, stampChar x = false → c ≠ x := by
      intro x hx e; rw [e, hx] at hh; exact absurd hh (by decide)
    simp [h1, h2, h3, h6, key '(' (by decide), key ')' (by decide), key '[' (by decide), key ']' (by decide)] at e

theorem dateBoundOut {b : Option (Date × Bool)} (h : ∀ x, b = some x → Readable x.1) :
    ',' ∉ boundText dateOut b ∧ dateBound (boundText dateOut b) = .ok (boundTime (goTime · midnight 0) b) := by
  cases b with
  | none => exact ⟨by simp [boundText], rfl⟩
  | some x =>
    obtain ⟨h1, h2, h3, h4⟩ := dateOut_stamp (h x rfl)
    rw [boundText, bare_boundOut h1 h2 h3, dateBound, if_pos (length_pos_ne h3), h4]
    exact ⟨stamp_free h1 _ (by decide), rfl⟩

/-- **C74** A daterange of the server: its bounds are read, not whether they belong to the range; a missing bound
becomes the zero time. -/
theorem C74_daterange_server_partial (lo hi : Option (Date × Bool)) (h1 : ∀ x, lo = some x → Readable x.1)
    (h2 : ∀ x, hi = some x → Readable x.1) (d : Time × Time) :
    dateRangeScan d (some (spanOut dateOut lo hi)) =
      .ok (boundTime (goTime · midnight 0) lo, boundTime (goTime · midnight 0) hi) := by
  obtain ⟨a, b, -, -, e⟩ := spanOut_eq dateOut lo hi
  rw [e, dateRangeScan, scanKeep, parseRange_span _ _ _ _ (dateBoundOut h1).1]
  simp [ofParse, Res.bind, boundsBy, (dateBoundOut h1).2, (dateBoundOut h2).2, Res.map]

/-- **C74** The bound 0001-01-01 of the server comes back as no bound; so does the empty range. -/
theorem C74_not_daterange :
    (dateRangeScan (zeroTime, zeroTime) (some b!"[0001-01-01,2020-02-01)")).map dateRangeValue =
      .ok b!"(,2020-02-01)" ∧
    (dateRangeScan (zeroTime, zeroTime) (some b!"empty")).map dateRangeValue = .ok b!"(,)" := by
  constructor <;> decide

/-- **C74** Only the instant 0001-01-01 00:00:00 UTC is no bound, in whatever zone it is given; a
nanosecond later is the bound 0001-01-01. -/
theorem C74_example_zero :
    dateRangeValue (zeroTime, { zeroTime with hour := 1, offset := 3600 }) = b!"(,)" ∧
    dateRangeValue ({ zeroTime with nano := 1 }, { zeroTime with second := 1 }) =
      b!"[0001-01-01,0001-01-01)" ∧
    dateRangeValue ({ zeroTime with hour := 1 }, { zeroTime with offset := 3600 }) =
      b!"[0001-01-01,0001-01-01)" := by
  refine ⟨?_, ?_, ?_⟩ <;> decide

/-! ### Arrays of ranges of timestamps -/

theorem quotedBody_append (a b : Bytes) : quotedBody (a ++ b) = quotedBody a ++ quotedBody b := by
  simp [quotedBody]

theorem quotedBody_quoted {s : Bytes} (h : ∀ c ∈ s, stampChar c = true) : quotedBody (quoted s) = quotedEsc s := by
  have e : quoted s = ['"'] ++ s ++ ['"'] := by simp [quoted]
  rw [e, quotedBody_append, quotedBody_append, stamp_quotedBody h]
  rfl

theorem dropEnds2_esc (s : Bytes) : dropEnds2 (quotedEsc s) = some s := by
  simp [dropEnds2, quotedEsc]

theorem quotedEsc_free {s : Bytes} (h : ∀ c ∈ s, stampChar c = true) : ',' ∉ quotedEsc s := by
  intro hm
  simp only [quotedEsc, List.mem_append] at hm
  rcases hm with (e | e) | e
  · exact absurd e (by decide)
  · exact stamp_free h ',' (by decide) e
  · exact absurd e (by decide)

/-- A range with both bounds. -/
def fullRange (a b : Char) (lo hi : Bytes) : Bytes := a :: (quoted lo ++ [','] ++ quoted hi ++ [b])

theorem fullRange_body {a b : Char} {lo hi : Bytes} (ha : a ≠ '"' ∧ a ≠ '\\') (hb : b ≠ '"' ∧ b ≠ '\\')
    (h1 : ∀ c ∈ lo, stampChar c = true) (h2 : ∀ c ∈ hi, stampChar c = true) :
    quotedBody (fullRange a b lo hi) = a :: (quotedEsc lo ++ [','] ++ quotedEsc hi ++ [b]) := by
  have e : fullRange a b lo hi = [a] ++ (quoted lo ++ [','] ++ quoted hi ++ [b]) := rfl
  rw [e, quotedBody_append, quotedBody_append, quotedBody_append, quotedBody_append, quotedBody_quoted h1,
    quotedBody_quoted h2]
  have ea : quotedBody [a] = [a] := by simp [quotedBody, ha.1, ha.2]
  have eb : quotedBody [b] = [b] := by simp [quotedBody, hb.1, hb.2]
  have ec : quotedBody [','] = [','] := by decide
  rw [ea, eb, ec]; rfl

theorem stampRangeOf_full {l : Layout} {a b : Char} {lo hi : Bytes} {s t : Time} (ha : a ≠ '"' ∧ a ≠ '\\')
    (hb : b ≠ '"' ∧ b ≠ '\\') (h1 : StampText l lo s) (h2 : StampText l hi t) :
    stampRangeOf l (some (quotedBody (fullRange a b lo hi))) = .ok (s, t) := by
  rw [fullRange_body ha hb h1.chars h2.chars, stampRangeOf, Option.getD_some,
    parseRange_span _ _ _ _ (quotedEsc_free h1.chars)]
  simp [ofParse, Res.bind, dropEnds2_esc, boundsBy, h1.parse, h2.parse, Res.map]

theorem stampRangeValue_full (l : Layout) (v : Time × Time) :
    stampRangeValue l v = fullRange '[' ')' (v.1.format l) (v.2.format l) := by
  simp [stampRangeValue, fullRange]

theorem quoteOut_body (s : Bytes) : quoteOut s = '"' :: (quotedBody s ++ ['"']) := by simp [quoteOut, quotedBody]

theorem stampRangeElem_eq (k : Stamp) (v : Time × Time) :
    stampRangeElem k.form.layout v = quoteOut (stampRangeValue k.form.layout v) := by
  rw [quoteOut_body, stampRangeValue_full, fullRange_body (by decide) (by decide) (format_stamp _ k.form_mem v.1)
    (format_stamp _ k.form_mem v.2)]
  simp [stampRangeElem]

/-- **C74** tsrange[], tstzrange[]: the ranges that were written are read back, as far as the form keeps them. -/
theorem C74_range_arr (k : Stamp) (v d : Option (List (Time × Time)))
    (h : ∀ vs, v = some vs → ∀ p ∈ vs, k.form.Fits p.1 ∧ k.form.Fits p.2) :
    stampRangeArrScan k.form.layout d (stampRangeArrValue k.form.layout v) =
      .ok (v.map (·.map fun p => (k.form.kept p.1, k.form.kept p.2))) := by
  cases v with
  | none => rfl
  | some vs =>
    have e : vs.map (stampRangeElem k.form.layout) =
        (vs.map (stampRangeValue k.form.layout)).map quoteOut := by
      rw [List.map_map]; exact List.map_congr_left fun p _ => stampRangeElem_eq k p
    rw [stampRangeArrValue, arrValue_some, e, stampRangeArrScan, scanReset, C26_quoted_elems, List.map_map]
    simp only [ofParse, Res.bind_ok]
    rw [mapRes_map (stampRangeOf k.form.layout) _ (fun p => (k.form.kept p.1, k.form.kept p.2))]
    · rfl
    · intro p hp
      obtain ⟨h1, h2⟩ := h vs rfl p hp
      rw [Function.comp_apply, stampRangeValue_full]
      exact stampRangeOf_full (by decide) (by decide) (format_text k _ h1) (format_text k _ h2)

/-- **C74** The server reads every element as the text of the range (`C74_range_server_in`). -/
theorem C74_range_arr_server_in (k : Stamp) (vs : List (Time × Time)) :
    ∃ lit, stampRangeArrValue k.form.layout (some vs) = some lit ∧
      arrayIn lit = some (vs.map fun v => some (stampRangeValue k.form.layout v)) := by
  refine ⟨_, arrValue_some _ _, arrayIn_lit _ _ vs fun v _ => ?_⟩
  rw [stampRangeElem_eq, quoteOut_eq]
  exact readsAs_quoted _ covers_out _

theorem quote_comma {s : Bytes} (h : ',' ∈ s) : elemOut (some s) = quoteOut s := by
  rw [elemOut, if_pos]
  rw [needsQuote, Bool.or_eq_true]
  exact .inr (List.any_eq_true.2 ⟨',', h, by decide⟩)

theorem spanOut_comma {α : Type} (f : α → Bytes) (lo hi : Option (α × Bool)) : ',' ∈ spanOut f lo hi := by
  obtain ⟨a, b, -, -, e⟩ := spanOut_eq f lo hi
  rw [e]; simp

/-- **C74** A tsrange[] or tstzrange[] of the server whose elements have both bounds is read element by element. -/
theorem C74_range_arr_server_partial (k : Stamp) (rs : List ((Moment × Bool) × (Moment × Bool)))
    (h : ∀ r ∈ rs, k.Readable r.1.1 ∧ k.Readable r.2.1) (d : Option (List (Time × Time))) :
    stampRangeArrScan k.form.layout d
        (some (arrayOut (rs.map fun r => some (spanOut k.out (some r.1) (some r.2))))) =
      .ok (some (rs.map fun r => (k.time r.1.1, k.time r.2.1))) := by
  have e : arrayOut (rs.map fun r => some (spanOut k.out (some r.1) (some r.2))) =
      '{' :: (joinWith b!"," ((rs.map fun r => spanOut k.out (some r.1) (some r.2)).map quoteOut) ++ ['}']) := by
    rw [arrayOut, List.map_map, List.map_map, List.cons_append]
    congr 3
    exact List.map_congr_left fun r _ => quote_comma (spanOut_comma _ _ _)
  rw [e, stampRangeArrScan, scanReset, C26_quoted_elems, List.map_map]
  simp only [ofParse, Res.bind_ok]
  rw [mapRes_map (stampRangeOf k.form.layout) _ (fun r => (k.time r.1.1, k.time r.2.1))]
  · rfl
  · intro r hr
    obtain ⟨h1, h2⟩ := h r hr
    obtain ⟨a, b, ha, hb, e⟩ := spanOut_eq k.out (some r.1) (some r.2)
    rw [Function.comp_apply, e, boundText, boundText, stamp_boundOut h1.text.chars h1.text.space,
      stamp_boundOut h2.text.chars h2.text.space]
    refine stampRangeOf_full ?_ ?_ h1.text h2.text
    · rcases ha with e | e <;> rw [e] <;> decide
    · rcases hb with e | e <;> rw [e] <;> decide

/-- **C74** An element of a tsrange[] or tstzrange[] without a bound, or NULL, is a panic; an empty range is left
out. -/
theorem C74_not_range_arr (k : Stamp) (d : Option (List (Time × Time))) :
    (∀ b : Option (Moment × Bool), (∀ x, b = some x → k.Readable x.1) →
      stampRangeArrScan k.form.layout d (some (arrayOut [some (spanOut k.out none b)])) = .panic ∧
      stampRangeArrScan k.form.layout d (some (arrayOut [some (spanOut k.out b none)])) = .panic) ∧
    stampRangeArrScan k.form.layout d (some (arrayOut [none])) = .panic ∧
    stampRangeArrScan k.form.layout d (some (arrayOut [some (textRangeOut .empty)])) = .ok (some []) := by
  have hone : ∀ s : Bytes, ',' ∈ s → stampRangeOf k.form.layout (some (quotedBody s)) = .panic →
      stampRangeArrScan k.form.layout d (some (arrayOut [some s])) = .panic := by
    intro s hs hp
    have e : arrayOut [some s] = '{' :: (joinWith b!"," ([s].map quoteOut) ++ ['}']) := by
      rw [arrayOut, List.cons_append, List.map_cons, quote_comma hs]; rfl
    rw [e, stampRangeArrScan, scanReset, C26_quoted_elems]
    simp [ofParse, Res.bind, mapRes, hp, Res.map]
  refine ⟨?_, ?_, ?_⟩
  · intro b hb
    -- the body of a bound
    have hbody : ∀ x, b = some x → quotedBody (boundText k.out b) = quotedEsc (k.out x.1) := by
      rintro x rfl
      have ht := (hb x rfl).text
      rw [boundText, stamp_boundOut ht.chars ht.space, quotedBody_quoted ht.chars]
    have hfree : ',' ∉ quotedBody (boundText k.out b) := by
      cases b with
      | none => simp [boundText, quotedBody]
      | some x => rw [hbody x rfl]; exact quotedEsc_free (hb x rfl).text.chars
    have hsp : ∀ (a e : Char) (lo hi : Bytes), (a = '[' ∨ a = '(') → (e = ']' ∨ e = ')') →
        quotedBody (a :: (lo ++ [','] ++ hi ++ [e])) = a :: (quotedBody lo ++ [','] ++ quotedBody hi ++ [e]) := by
      intro a e lo hi ha he
      have ea : quotedBody [a] = [a] := by rcases ha with h | h <;> rw [h] <;> decide
      have ee : quotedBody [e] = [e] := by rcases he with h | h <;> rw [h] <;> decide
      have h1 : a :: (lo ++ [','] ++ hi ++ [e]) = [a] ++ (lo ++ [','] ++ hi ++ [e]) := rfl
      rw [h1, quotedBody_append, quotedBody_append, quotedBody_append, quotedBody_append, ea, ee]
      rfl
    constructor
    · refine hone _ (spanOut_comma _ _ _) ?_
      obtain ⟨a, e, ha, he, eq⟩ := spanOut_eq k.out none b
      rw [eq, hsp a e _ _ ha he, stampRangeOf, Option.getD_some, parseRange_span _ _ _ _ (by simp [boundText, quotedBody])]
      rfl
    · refine hone _ (spanOut_comma _ _ _) ?_
      obtain ⟨a, e, ha, he, eq⟩ := spanOut_eq k.out b none
      rw [eq, hsp a e _ _ ha he, stampRangeOf, Option.getD_some, parseRange_span _ _ _ _ hfree]
      cases b with
      | none => rfl
      | some x =>
        rw [hbody x rfl]
        simp only [ofParse, Res.bind, dropEnds2_esc]
        rfl
  · cases k <;> rfl
  · cases k <;> rfl

/-! ### Arrays of ranges of dates -/

theorem dateRangeValue_free (v : Time × Time) : '"' ∉ dateRangeValue v ∧ '\\' ∉ dateRangeValue v := by
  rw [dateRangeValue_eq]
  constructor <;>
  · intro h
    simp only [List.mem_cons, List.mem_append, List.not_mem_nil, or_false] at h
    rcases h with h | ((h | h) | h) | h
    · split at h <;> exact absurd h (by decide)
    · exact dateBoundText_free _ _ (by decide) h
    · exact absurd h (by decide)
    · exact dateBoundText_free _ _ (by decide) h
    · exact absurd h (by decide)

/-- **C74** daterange[]: the ranges that were written are read back; nil is written as NULL, which leaves the
destination. -/
theorem C74_daterange_arr (vs : List (Time × Time)) (h : ∀ p ∈ vs, dateForm.Fits p.1 ∧ dateForm.Fits p.2)
    (d : Option (List (Time × Time))) :
    dateRangeArrScan d (dateRangeArrValue (some vs)) = .ok (some (vs.map fun p => (dateBack p.1, dateBack p.2))) ∧
    dateRangeArrScan d (dateRangeArrValue none) = .ok d := by
  refine ⟨?_, rfl⟩
  rw [dateRangeArrValue, arrValue_some, dateRangeArrScan, scanKeep,
    parseQuoted_lit '{' '}' dateRangeValue vs fun v _ => dateRangeValue_free v]
  simp only [ofParse, Res.bind_ok]
  rw [mapRes_map _ _ (fun p => (dateBack p.1, dateBack p.2))]
  · rfl
  · intro p hp
    exact dateRange_parse p (h p hp).1 (h p hp).2

/-- **C74** The server reads every element as the text of the range (`C74_daterange_server_in`). -/
theorem C74_daterange_arr_server_in (vs : List (Time × Time)) :
    ∃ lit, dateRangeArrValue (some vs) = some lit ∧ arrayIn lit = some (vs.map fun v => some (dateRangeValue v)) := by
  refine ⟨_, arrValue_some _ _, arrayIn_lit _ _ vs fun v _ => ?_⟩
  exact readsAs_wrapped _ (dateRangeValue_free v).1 (dateRangeValue_free v).2

/-- **C74** A daterange[] of the server without NULLs and empty ranges is read element by element. -/
theorem C74_daterange_arr_server_partial (rs : List (Option (Date × Bool) × Option (Date × Bool)))
    (h : ∀ r ∈ rs, (∀ x, r.1 = some x → Readable x.1) ∧ (∀ x, r.2 = some x → Readable x.1))
    (d : Option (List (Time × Time))) :
    dateRangeArrScan d (some (arrayOut (rs.map fun r => some (spanOut dateOut r.1 r.2)))) =
      .ok (some (rs.map fun r => (boundTime (goTime · midnight 0) r.1, boundTime (goTime · midnight 0) r.2))) := by
  have e : arrayOut (rs.map fun r => some (spanOut dateOut r.1 r.2)) =
      '{' :: (joinWith b!"," ((rs.map fun r => spanOut dateOut r.1 r.2).map quoteOut) ++ ['}']) := by
    rw [arrayOut, List.map_map, List.map_map, List.cons_append]
    congr 3
    exact List.map_congr_left fun r _ => quote_comma (spanOut_comma _ _ _)
  have hbt : ∀ (b : Option (Date × Bool)), (∀ x, b = some x → Readable x.1) → ∀ c ∈ boundText dateOut b,
      stampChar c = true := by
    intro b hb c hc
    cases b with
    | none => cases hc
    | some x =>
      obtain ⟨h1, h2, h3, -⟩ := dateOut_stamp (hb x rfl)
      rw [boundText, bare_boundOut h1 h2 h3] at hc
      exact h1 c hc
  rw [e, dateRangeArrScan, scanKeep, C26_quoted_elems, List.map_map]
  simp only [ofParse, Res.bind_ok]
  rw [mapRes_map _ _ (fun r : Option (Date × Bool) × Option (Date × Bool) =>
    (boundTime (goTime · midnight 0) r.1, boundTime (goTime · midnight 0) r.2))]
  · rfl
  · intro r hr
    obtain ⟨h1, h2⟩ := h r hr
    obtain ⟨a, b, ha, hb, e⟩ := spanOut_eq dateOut r.1 r.2
    have ea : quotedBody [a] = [a] := by rcases ha with h | h <;> rw [h] <;> decide
    have eb : quotedBody [b] = [b] := by rcases hb with h | h <;> rw [h] <;> decide
    have e2 : quotedBody (spanOut dateOut r.1 r.2) =
        a :: (boundText dateOut r.1 ++ [','] ++ boundText dateOut r.2 ++ [b]) := by
      have h3 : a :: (boundText dateOut r.1 ++ [','] ++ boundText dateOut r.2 ++ [b]) =
        [a] ++ (boundText dateOut r.1 ++ [','] ++ boundText dateOut r.2 ++ [b]) := rfl
      rw [e, h3, quotedBody_append, quotedBody_append, quotedBody_append, quotedBody_append, ea, eb,
        stamp_quotedBody (hbt _ h1), stamp_quotedBody (hbt _ h2)]
      rfl
    rw [Function.comp_apply, e2, Option.getD_some, parseRange_span _ _ _ _ (dateBoundOut h1).1]
    simp [ofParse, Res.bind, boundsBy, (dateBoundOut h1).2, (dateBoundOut h2).2, Res.map]

/-- **C74** A NULL in a daterange[] is a panic; an empty range is left out. -/
theorem C74_not_daterange_arr (d : Option (List (Time × Time))) :
    dateRangeArrScan d (some (arrayOut [none])) = .panic ∧
    dateRangeArrScan d (some (arrayOut [some (textRangeOut .empty)])) = .ok (some []) := ⟨rfl, rfl⟩

/-! ### Single values -/

/-- **C74** Dates and times in strings: a date is read only from a `time.Time`; a time of day is cut to
milliseconds; a `time.Time` gives a timetz of the form -08:00. -/
theorem C74_strings (t : Time) (b dest : Bytes) (l : Layout) :
    dateToString (.time t) = t.format dateLayout ∧ dateToString (.text b) = [] ∧ dateToString .null = [] ∧
    timeToString l dest (.text b) = b ∧ timeToString l dest .null = dest ∧
    timeToString l dest (.time t) = t.format l := ⟨rfl, rfl, rfl, rfl, rfl, rfl⟩

/-! ### Examples -/

/-- 2020-02-29 23:59:58.5 at UTC-8. -/
def leapDay : Time := { year := 2020, month := 2, day := 29, hour := 23, minute := 59, second := 58, nano := 500000000, offset := -28800 }

example : stampArrValue timestamptzLayout (some [leapDay, zeroTime]) =
    some b!"{\"2020-02-29 23:59:58.5-08\",\"0001-01-01 00:00:00+00\"}" := by decide
example : stampRangeArrValue timestampLayout (some [(zeroTime, leapDay)]) =
    some b!"{\"[\\\"0001-01-01 00:00:00\\\",\\\"2020-02-29 23:59:58.5\\\")\"}" := by decide
example : stampArrScan timestampLayout none (some b!"{NULL,\"2020-02-29 23:59:58.5\"}") =
    .ok (some [zeroTime, { leapDay with offset := 0 }]) := by decide
example : dateRangeArrValue (some [(zeroTime, leapDay), (leapDay, zeroTime)]) =
    some b!"{\"(,2020-02-29)\",\"[2020-02-29,)\"}" := by decide
example : timestampForm.Fits leapDay := by
  refine ⟨?_, ?_, ?_⟩
  · constructor <;> decide
  · decide
  · decide
example : Stamp.zoned.Readable ⟨⟨2020, 2, 29⟩, ⟨23, 59, 58, 500000⟩, -28800⟩ := by
  constructor
  · constructor <;> decide
  · decide
  · constructor <;> decide
  · decide
  · decide
  · decide

end Verif.Pgsql
