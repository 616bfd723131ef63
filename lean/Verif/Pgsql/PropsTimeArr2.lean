import Verif.Pgsql.PropsTimeArr

/- C74: arrays of timestamps, and ranges. -/
namespace Verif.Pgsql

open Verif PgServer

/-- timestamp and timestamptz. -/
inductive Stamp where
  | plain
  | zoned
deriving Repr, DecidableEq

def Stamp.form : Stamp → Form
  | .plain => timestampForm
  | .zoned => timestamptzForm

/-- A value of the server: date, time, and the offset of the session. -/
structure Moment where
  date : Date
  clock : Clock
  offset : Int

/-- The text of the server. -/
def Stamp.out : Stamp → Moment → Bytes
  | .plain, m => timestampOut m.date m.clock
  | .zoned, m => timestamptzOut m.date m.clock m.offset

/-- The time that it stands for. -/
def Stamp.time : Stamp → Moment → Time
  | .plain, m => goTime m.date m.clock 0
  | .zoned, m => goTime m.date m.clock m.offset

/-- A moment that can be read (C73). -/
structure Stamp.Readable (k : Stamp) (m : Moment) : Prop where
  date : m.date.Valid
  year : 1 ≤ m.date.year ∧ m.date.year ≤ 9999
  clock : m.clock.Valid
  hour : m.clock.hour < 24
  offset : m.offset.natAbs < 16 * 3600
  hours : k = .zoned → m.offset % 3600 = 0

theorem Stamp.form_mem (k : Stamp) : k.form ∈ forms := by cases k <;> decide

theorem stamp_date_char {d : Date} {c : Char} (h : c ∈ dateBody d) : stampChar c = true := by
  rcases dateBody_chars d c h with e | e
  · exact dig_stamp e
  · rw [e]; decide

theorem stamp_clock_char {d : Clock} {c : Char} (h : c ∈ clockOut d) : stampChar c = true := by
  rcases clockOut_chars d c h with e | e | e
  · exact dig_stamp e
  · rw [e]; decide
  · rw [e]; decide

theorem stamp_zone_char {o : Int} {c : Char} (h : c ∈ zoneOut o) : stampChar c = true := by
  rcases zoneOut_chars o c h with e | e | e | e
  · exact dig_stamp e
  · rw [e]; decide
  · rw [e]; decide
  · rw [e]; decide

/-- A text with a space and without special characters that is read as a time. -/
structure StampText (l : Layout) (s : Bytes) (t : Time) : Prop where
  chars : ∀ c ∈ s, stampChar c = true
  space : ' ' ∈ s
  parse : parseTime l s = .ok t

theorem Stamp.Readable.text {k : Stamp} {m : Moment} (h : k.Readable m) :
    StampText k.form.layout (k.out m) (k.time m) := by
  have hb : bcOut m.date.year = [] := by rw [bcOut, if_pos (by have := h.year.1; omega)]
  cases k with
  | plain =>
    refine ⟨?_, ?_, ?_⟩
    · intro c hc
      simp only [Stamp.out, timestampOut, hb, List.append_nil, List.mem_append] at hc
      rcases hc with (hc | hc) | hc
      · exact stamp_date_char hc
      · rw [List.mem_singleton.1 hc]; decide
      · exact stamp_clock_char hc
    · simp [Stamp.out, timestampOut]
    · exact (C73_scan_timestamp m.date h.date m.clock h.clock h.hour).trans (if_pos h.year)
  | zoned =>
    refine ⟨?_, ?_, ?_⟩
    · intro c hc
      simp only [Stamp.out, timestamptzOut, hb, List.append_nil, List.mem_append] at hc
      rcases hc with ((hc | hc) | hc) | hc
      · exact stamp_date_char hc
      · rw [List.mem_singleton.1 hc]; decide
      · exact stamp_clock_char hc
      · exact stamp_zone_char hc
    · simp [Stamp.out, timestamptzOut]
    · exact (C73_scan_timestamptz m.date h.date m.clock h.clock h.hour m.offset h.offset).trans
        (if_pos ⟨h.year.1, h.year.2, h.hours rfl⟩)

theorem format_text (k : Stamp) (t : Time) (h : k.form.Fits t) :
    StampText k.form.layout (t.format k.form.layout) (k.form.kept t) := by
  refine ⟨format_stamp _ k.form_mem t, ?_, h.parse k.form_mem⟩
  refine List.mem_flatMap.2 ⟨.lit ' ', ?_, by simp [formatChunk]⟩
  cases k <;> decide

theorem stamp_free {s : Bytes} (h : ∀ c ∈ s, stampChar c = true) (c : Char) (hc : stampChar c = false) : c ∉ s := by
  intro hm; rw [h c hm] at hc; exact absurd hc (by decide)

theorem stamp_quotedBody {s : Bytes} (h : ∀ c ∈ s, stampChar c = true) : quotedBody s = s := by
  have : quotedBody s = escWith (fun c => decide (c = '"' ∨ c = '\\')) s := by simp [quotedBody, escWith]
  rw [this]
  refine escWith_none _ s fun c hc => ?_
  have h1 := h c hc
  rw [decide_eq_false_iff_not]
  rintro (rfl | rfl) <;> exact absurd h1 (by decide)

theorem stamp_quoteOut {s : Bytes} (h : ∀ c ∈ s, stampChar c = true) : quoteOut s = quoted s := by
  have e : quoteOut s = '"' :: (quotedBody s ++ ['"']) := by simp [quoteOut, quotedBody]
  rw [e, stamp_quotedBody h, quoted]

theorem stamp_elemOut {l : Layout} {s : Bytes} {t : Time} (h : StampText l s t) : elemOut (some s) = quoted s := by
  have hq : needsQuote s = true := by
    rw [needsQuote, Bool.or_eq_true]
    exact .inr (List.any_eq_true.2 ⟨' ', h.space, by decide⟩)
  rw [elemOut, if_pos hq, stamp_quoteOut h.chars]

theorem stampElem_quoted {l : Layout} {s : Bytes} {t : Time} (h : StampText l s t) : stampElem l (quoted s) = .ok t := by
  rw [stampElem, quoted, dropEnds_wrap]
  simp [ofParse, Res.bind, h.parse]

theorem quoted_free {s : Bytes} (h : ∀ c ∈ s, stampChar c = true) (c : Char) (hc : stampChar c = false)
    (h2 : c ≠ '"') : c ∉ quoted s := by
  intro hm
  simp only [quoted, List.mem_cons, List.mem_append, List.not_mem_nil, or_false] at hm
  rcases hm with e | e | e
  · exact h2 e
  · exact stamp_free h c hc e
  · exact h2 e

/-! ### Arrays of timestamps -/

/-- **C74** timestamp[], timestamptz[]: the slice that was written is read back, as far as the form keeps the
times. -/
theorem C74_stamp_arr (k : Stamp) (v d : Option (List Time)) (h : ∀ ts, v = some ts → ∀ t ∈ ts, k.form.Fits t) :
    stampArrScan k.form.layout d (stampArrValue k.form.layout v) = .ok (v.map (·.map k.form.kept)) := by
  cases v with
  | none => rfl
  | some ts =>
    rw [stampArrValue, arrValue_some, stampArrScan, scanReset,
      comma_scan (stampElem k.form.layout) (fun t : Time => quoted (t.format k.form.layout)) k.form.kept ts]
    · rfl
    · exact fun t ht => quoted_free (format_text k t (h ts rfl t ht)).chars ',' (by decide) (by decide)
    · intro t _; simp [quoted]
    · exact fun t ht => stampElem_quoted (format_text k t (h ts rfl t ht))

/-- **C74** The server reads the elements of the literal as the texts of the times (C73). -/
theorem C74_stamp_server_in (k : Stamp) (ts : List Time) :
    ∃ lit, stampArrValue k.form.layout (some ts) = some lit ∧
      arrayIn lit = some (ts.map fun t => some (t.format k.form.layout)) := by
  refine ⟨_, arrValue_some _ _, arrayIn_lit _ _ ts fun t _ => ?_⟩
  have h := format_stamp _ k.form_mem t
  have := readsAs_wrapped (t.format k.form.layout) (stamp_free h _ (by decide)) (stamp_free h _ (by decide))
  simpa [quoted] using this

/-- **C74** A timestamp[] or timestamptz[] of the server is read element by element; a NULL becomes the zero
time. -/
theorem C74_stamp_server_partial (k : Stamp) (ms : List (Option Moment)) (h : ∀ m, some m ∈ ms → k.Readable m)
    (d : Option (List Time)) :
    stampArrScan k.form.layout d (some (arrayOut (ms.map (·.map k.out)))) =
      .ok (some (ms.map fun m => (m.map k.time).getD zeroTime)) := by
  have e : arrayOut (ms.map (·.map k.out)) =
      '{' :: (joinWith b!"," (ms.map fun m => elemOut (m.map k.out)) ++ ['}']) := by
    rw [arrayOut, List.map_map, List.cons_append]; rfl
  rw [e, stampArrScan, scanReset, comma_scan (stampElem k.form.layout) (fun m => elemOut (m.map k.out))
    (fun m => (m.map k.time).getD zeroTime) ms]
  · rfl
  · intro m hm
    cases m with
    | none => cases k <;> decide
    | some m =>
      have ht := (h m hm).text
      rw [Option.map_some, stamp_elemOut ht]
      exact quoted_free ht.chars ',' (by decide) (by decide)
  · intro m hm
    cases m with
    | none => cases k <;> decide
    | some m => rw [Option.map_some, stamp_elemOut (h m hm).text]; simp [quoted]
  · intro m hm
    cases m with
    | none => rfl
    | some m =>
      rw [Option.map_some, stamp_elemOut (h m hm).text, stampElem_quoted (h m hm).text]; rfl

/-! ### Ranges of timestamps -/

theorem parseRange_span (a b : Char) (lo hi : Bytes) (h : ',' ∉ lo) :
    parseRange (a :: (lo ++ [','] ++ hi ++ [b])) = some (lo, hi) := by
  have e : a :: (lo ++ [','] ++ hi ++ [b]) = a :: ((lo ++ ',' :: hi) ++ [b]) := by simp
  rw [e, parseRange, dropEnds_wrap]
  simp [rangeLoop_append _ _ _ h]

theorem stampBound_quoted {l : Layout} {s : Bytes} {t : Time} (h : StampText l s t) : stampBound l (quoted s) = .ok t := by
  rw [stampBound, if_pos (by simp [quoted]), quoted, dropEnds_wrap]
  simp [ofParse, Res.bind, h.parse]

/-- **C74** tsrange, tstzrange: the bounds that were written are read back, as far as the form keeps them. -/
theorem C74_range (k : Stamp) (v d : Time × Time) (h1 : k.form.Fits v.1) (h2 : k.form.Fits v.2) :
    stampRangeScan k.form.layout d (some (stampRangeValue k.form.layout v)) =
      .ok (k.form.kept v.1, k.form.kept v.2) := by
  have t1 := format_text k _ h1
  have t2 := format_text k _ h2
  have e : stampRangeValue k.form.layout v = '[' :: (quoted (v.1.format k.form.layout) ++ [','] ++
      quoted (v.2.format k.form.layout) ++ [')']) := by simp [stampRangeValue]
  rw [e, stampRangeScan, scanKeep, parseRange_span _ _ _ _ (quoted_free t1.chars ',' (by decide) (by decide))]
  simp [ofParse, Res.bind, boundsBy, stampBound_quoted t1, stampBound_quoted t2, Res.map]

theorem textBoundIn_quoted (b : Bool) (s : Bytes) : textBoundIn b (quoted s) = some (s, b) := by
  rw [textBoundIn, if_neg (by simp [quoted]), if_pos]
  · simp [quoted]
  · refine ⟨by simp [quoted], rfl, ?_⟩
    rw [quoted, ← List.cons_append, List.getLast?_concat]

theorem textRangeIn_span (a b : Char) (lo hi : Bytes) (ha : a = '[' ∨ a = '(') (hb : b = ']' ∨ b = ')')
    (h1 : ',' ∉ lo) (h2 : ',' ∉ hi) :
    textRangeIn (a :: (lo ++ [','] ++ hi ++ [b])) =
      some (.span (textBoundIn (a = '[') lo) (textBoundIn (b = ']') hi)) := by
  rw [textRangeIn, if_neg]
  · simp only [List.getLast?_concat, List.dropLast_concat, Option.some.injEq]
    rw [if_pos ⟨ha, hb⟩]
    have e : lo ++ [','] ++ hi = lo ++ ',' :: hi := by simp
    rw [e, splitAt_append ',' _ _ h1, splitAt_word ',' _ h2]
  · intro e
    injection e with e _
    rcases ha with h | h <;> rw [h] at e <;> exact absurd e (by decide)

/-- **C74** The server reads the bounds, the first inclusive and the second exclusive. -/
theorem C74_range_server_in (k : Stamp) (v : Time × Time) :
    textRangeIn (stampRangeValue k.form.layout v) =
      some (.span (some (v.1.format k.form.layout, true)) (some (v.2.format k.form.layout, false))) := by
  have h1 := format_stamp _ k.form_mem v.1
  have h2 := format_stamp _ k.form_mem v.2
  have e : stampRangeValue k.form.layout v = '[' :: (quoted (v.1.format k.form.layout) ++ [','] ++
      quoted (v.2.format k.form.layout) ++ [')']) := by simp [stampRangeValue]
  rw [e, textRangeIn_span _ _ _ _ (.inl rfl) (.inr rfl) (quoted_free h1 ',' (by decide) (by decide))
    (quoted_free h2 ',' (by decide) (by decide)), textBoundIn_quoted, textBoundIn_quoted]
  rfl

theorem stamp_boundOut {s : Bytes} (h : ∀ c ∈ s, stampChar c = true) (hs : ' ' ∈ s) : boundOut s = quoted s := by
  rw [boundOut, if_pos]
  · have : s.flatMap (fun c => if c = '"' ∨ c = '\\' then [c, c] else [c]) = s := by
      clear hs
      induction s with
      | nil => rfl
      | cons c s ih =>
        rw [List.flatMap_cons, ih (fun d hd => h d (by simp [hd])), if_neg]
        · rfl
        · have h1 := h c (by simp)
          rintro (rfl | rfl) <;> exact absurd h1 (by decide)
    rw [this]; rfl
  · rw [Bool.or_eq_true]
    exact .inr (List.any_eq_true.2 ⟨' ', hs, by decide⟩)

/-- A range of the server: its bounds and whether they belong to it. -/
def spanOut {α : Type} (f : α → Bytes) (lo hi : Option (α × Bool)) : Bytes :=
  textRangeOut (.span (lo.map fun b => (f b.1, b.2)) (hi.map fun b => (f b.1, b.2)))

/-- The text between the parentheses of a bound. -/
def boundText {α : Type} (f : α → Bytes) : Option (α × Bool) → Bytes
  | some b => boundOut (f b.1)
  | none => []

theorem spanOut_eq {α : Type} (f : α → Bytes) (lo hi : Option (α × Bool)) :
    ∃ a b, (a = '[' ∨ a = '(') ∧ (b = ']' ∨ b = ')') ∧
      spanOut f lo hi = a :: (boundText f lo ++ [','] ++ boundText f hi ++ [b]) := by
  have h1 : ∀ i : Bool, (if i then '[' else '(') = '[' ∨ (if i then '[' else '(') = '(' := by decide
  have h2 : ∀ i : Bool, (if i then ']' else ')') = ']' ∨ (if i then ']' else ')') = ')' := by decide
  rcases lo with _ | ⟨l, i⟩ <;> rcases hi with _ | ⟨r, j⟩
  · exact ⟨'(', ')', .inr rfl, .inr rfl, by simp [spanOut, textRangeOut, boundText]⟩
  · exact ⟨'(', _, .inr rfl, h2 j, by simp [spanOut, textRangeOut, boundText]⟩
  · exact ⟨_, ')', h1 i, .inr rfl, by simp [spanOut, textRangeOut, boundText]⟩
  · exact ⟨_, _, h1 i, h2 j, by simp [spanOut, textRangeOut, boundText]⟩

theorem boundText_free (k : Stamp) (b : Option (Moment × Bool)) (h : ∀ x, b = some x → k.Readable x.1) :
    ',' ∉ boundText k.out b := by
  cases b with
  | none => simp [boundText]
  | some x =>
    have ht := (h x rfl).text
    rw [boundText, stamp_boundOut ht.chars ht.space]
    exact quoted_free ht.chars ',' (by decide) (by decide)

/-- The time of a bound: the zero time if there is none. -/
def boundTime {α : Type} (f : α → Time) : Option (α × Bool) → Time
  | some b => f b.1
  | none => zeroTime

theorem stampBound_text (k : Stamp) (b : Option (Moment × Bool)) (h : ∀ x, b = some x → k.Readable x.1) :
    stampBound k.form.layout (boundText k.out b) = .ok (boundTime k.time b) := by
  cases b with
  | none => rfl
  | some x =>
    have ht := (h x rfl).text
    rw [boundText, stamp_boundOut ht.chars ht.space, stampBound_quoted ht]; rfl

/-- **C74** A tsrange or tstzrange of the server: its bounds are read, not whether they belong to the range; a
missing bound becomes the zero time. -/
theorem C74_range_server_partial (k : Stamp) (lo hi : Option (Moment × Bool)) (h1 : ∀ x, lo = some x → k.Readable x.1)
    (h2 : ∀ x, hi = some x → k.Readable x.1) (d : Time × Time) :
    stampRangeScan k.form.layout d (some (spanOut k.out lo hi)) = .ok (boundTime k.time lo, boundTime k.time hi) := by
  obtain ⟨a, b, -, -, e⟩ := spanOut_eq k.out lo hi
  rw [e, stampRangeScan, scanKeep, parseRange_span _ _ _ _ (boundText_free k lo h1)]
  simp [ofParse, Res.bind, boundsBy, stampBound_text k lo h1, stampBound_text k hi h2, Res.map]

/-- **C74** The empty range becomes two zero times, like the range without bounds; written again, these are
bounds of the year 1. -/
theorem C74_not_empty (k : Stamp) (d : Time × Time) :
    stampRangeScan k.form.layout d (some (textRangeOut .empty)) = .ok (zeroTime, zeroTime) ∧
    stampRangeScan k.form.layout d (some (spanOut k.out none none)) = .ok (zeroTime, zeroTime) ∧
    stampRangeValue timestampLayout (zeroTime, zeroTime) = b!"[\"0001-01-01 00:00:00\",\"0001-01-01 00:00:00\")" := by
  refine ⟨?_, ?_, by decide⟩ <;> cases k <;> rfl

/-- **C74** NULL leaves the array of two times as it was. -/
theorem C74_range_null (l : Layout) (d : Time × Time) :
    stampRangeScan l d none = .ok d ∧ dateRangeScan d none = .ok d := ⟨rfl, rfl⟩

end Verif.Pgsql
