import Verif.Pgsql.PropsTime3
import Verif.Pgsql.PropsScalar
import Verif.Pgsql.PropsMore
import Verif.Pgsql.PropsGeo

/- C74: arrays of dates and times. -/
namespace Verif.Pgsql

open Verif PgServer

/-! ### Characters -/

def stampChar (c : Char) : Bool := isDig 10 c || c = '-' || c = ':' || c = '.' || c = ' ' || c = '+'

theorem dig_stamp {c : Char} (h : isDig 10 c = true) : stampChar c = true := by simp [stampChar, h]

theorem appendInt_chars (x : Int) (w : Nat) (c : Char) (h : c ∈ appendInt x w) : isDig 10 c = true ∨ c = '-' := by
  unfold appendInt at h
  rcases List.mem_append.1 h with h | h
  · split at h
    · exact .inr (by simpa using h)
    · simp at h
  · split at h
    · exact .inl (fixedDigits_dig _ _ c h)
    · exact .inl (isDig_toDigits 10 _ (by omega) (by omega) c h)

theorem appendInt_stamp {x : Int} {w : Nat} {c : Char} (h : c ∈ appendInt x w) : stampChar c = true := by
  rcases appendInt_chars x w c h with h | h
  · exact dig_stamp h
  · rw [h]; decide

theorem zoneSign_stamp (o : Int) : stampChar (zoneSign o) = true := by
  rcases zoneSign_cases o with h | h <;> rw [h] <;> decide

theorem chunk_stamp (t : Time) (k : Chunk) (hk : ∀ c, k = .lit c → stampChar c = true) (c : Char)
    (h : c ∈ formatChunk t k) : stampChar c = true := by
  cases k with
  | lit x => rw [formatChunk, List.mem_singleton] at h; rw [h]; exact hk x rfl
  | frac =>
    rcases frac_chars _ c h with h | h
    · exact dig_stamp h
    · rw [h]; decide
  | zoneHour =>
    rw [formatChunk] at h
    rcases List.mem_cons.1 h with h | h
    · rw [h]; exact zoneSign_stamp _
    · exact appendInt_stamp h
  | zoneColon =>
    rw [formatChunk] at h
    simp only [List.cons_append, List.append_assoc, List.mem_cons, List.mem_append, List.not_mem_nil] at h
    rcases h with h | h | h | h | h
    · rw [h]; exact zoneSign_stamp _
    · exact appendInt_stamp h
    · rw [h]; decide
    · exact h.elim
    · exact appendInt_stamp h
  | _ => exact appendInt_stamp h

theorem format_stamp (f : Form) (hf : f ∈ forms) (t : Time) (c : Char) (h : c ∈ t.format f.layout) :
    stampChar c = true := by
  obtain ⟨k, hk, hc⟩ := List.mem_flatMap.1 h
  refine chunk_stamp t k ?_ c hc
  intro x hx
  subst hx
  have : ∀ f ∈ forms, ∀ k ∈ f.layout, (match k with | .lit x => stampChar x | _ => true) = true := by decide
  exact this f hf _ hk

theorem format_free (f : Form) (hf : f ∈ forms) (t : Time) (c : Char) (hc : stampChar c = false) :
    c ∉ t.format f.layout := by
  intro h
  rw [format_stamp f hf t c h] at hc
  exact absurd hc (by decide)

theorem appendInt_ne_nil (x : Int) (w : Nat) (hw : 0 < w) : appendInt x w ≠ [] := by
  unfold appendInt
  intro h
  have h2 := (List.append_eq_nil_iff.1 h).2
  split at h2
  · have := length_fixedDigits w x.natAbs
    rw [h2] at this
    simp at this; omega
  · simp at h2

theorem format_ne_nil (f : Form) (hf : f ∈ forms) (t : Time) : t.format f.layout ≠ [] := by
  intro h
  have key : ∀ k l, t.format (k :: l) = [] → formatChunk t k = [] := by
    intro k l hk
    rw [format_cons] at hk
    exact (List.append_eq_nil_iff.1 hk).1
  simp only [forms, List.mem_cons, List.not_mem_nil, or_false] at hf
  rcases hf with e | e | e | e | e <;> subst e <;>
    exact appendInt_ne_nil _ _ (by decide) (key _ _ h)

/-! ### Arrays without quotes -/

/-- A time fits a form: years of four digits, and no offset of 25 hours or more. -/
structure Form.Fits (f : Form) (t : Time) : Prop where
  valid : t.Valid
  year : f.date = true → 0 ≤ t.year ∧ t.year ≤ 9999
  offset : t.offset.natAbs < 25 * 3600

theorem Form.Fits.parse {f : Form} {t : Time} (hf : f ∈ forms) (h : f.Fits t) :
    parseTime f.layout (t.format f.layout) = .ok (f.kept t) :=
  C73_round_trip_partial f hf t h.valid h.year h.offset

/-- The forms of the array types whose elements are written without quotes. -/
def bareForms : List Form := [dateForm, timeForm, timetzForm]

theorem bare_forms {f : Form} (h : f ∈ bareForms) : f ∈ forms := by
  have : ∀ f ∈ bareForms, f ∈ forms := by decide
  exact this f h

/-- **C74** date[], time[], timetz[]: the slice that was written is read back, as far as the form keeps the
times. -/
theorem C74_arr (f : Form) (hf : f ∈ bareForms) (v d : Option (List Time))
    (h : ∀ ts, v = some ts → ∀ t ∈ ts, f.Fits t) :
    timeArrScan f.layout d (timeArrValue f.layout v) = .ok (v.map (·.map f.kept)) := by
  cases v with
  | none => rfl
  | some ts =>
    rw [timeArrValue, arrValue_some, timeArrScan, scanReset,
      comma_scan (parseTime f.layout) (fun t : Time => t.format f.layout) f.kept ts]
    · rfl
    · exact fun t _ => format_free f (bare_forms hf) t ',' (by decide)
    · exact fun t _ => format_ne_nil f (bare_forms hf) t
    · exact fun t ht => (h ts rfl t ht).parse (bare_forms hf)

theorem bare_free (f : Form) (hf : f ∈ bareForms) (t : Time) : ' ' ∉ t.format f.layout := by
  intro h
  obtain ⟨k, hk, hc⟩ := List.mem_flatMap.1 h
  have hl : ∀ f ∈ bareForms, Chunk.lit ' ' ∉ f.layout := by decide
  cases k with
  | lit x =>
    rw [formatChunk, List.mem_singleton] at hc
    rw [← hc] at hk
    exact hl f hf hk
  | frac => rcases frac_chars _ _ hc with h | h <;> exact absurd h (by decide)
  | zoneHour =>
    rw [formatChunk] at hc
    rcases List.mem_cons.1 hc with h | h
    · rcases zoneSign_cases t.offset with e | e <;> rw [e] at h <;> exact absurd h (by decide)
    · rcases appendInt_chars _ _ _ h with h | h <;> exact absurd h (by decide)
  | zoneColon =>
    rw [formatChunk] at hc
    simp only [List.cons_append, List.append_assoc, List.mem_cons, List.mem_append, List.not_mem_nil] at hc
    rcases hc with h | h | h | h | h
    · rcases zoneSign_cases t.offset with e | e <;> rw [e] at h <;> exact absurd h (by decide)
    · rcases appendInt_chars _ _ _ h with h | h <;> exact absurd h (by decide)
    · exact absurd h (by decide)
    · exact h.elim
    · rcases appendInt_chars _ _ _ h with h | h <;> exact absurd h (by decide)
  | _ => rcases appendInt_chars _ _ _ hc with h | h <;> exact absurd h (by decide)

theorem stamp_plain (s : Bytes) (h : ∀ c ∈ s, stampChar c = true) (hs : ' ' ∉ s) : Plain s := by
  intro c hc
  have h1 := h c hc
  have h2 : c ≠ ' ' := fun e => hs (e ▸ hc)
  have key : ∀ x, stampChar x = false → c ≠ x := by
    intro x hx e; rw [e, hx] at h1; exact absurd h1 (by decide)
  refine ⟨?_, key '"' (by decide), key '\\' (by decide), key '{' (by decide), key '}' (by decide),
    key ',' (by decide)⟩
  simp [isSpace, h2, key '\t' (by decide), key '\n' (by decide), key '\r' (by decide), key '\x0b' (by decide),
    key '\x0c' (by decide)]

theorem toNat_ofNat (n : Nat) (hv : n.isValidChar) : (Char.ofNat n).toNat = n := by
  rw [Char.ofNat, dif_pos hv]
  simp [Char.toNat, Char.ofNatAux]

/-- A text with a first character that is not a letter. -/
theorem not_null (s : Bytes) (h : ∀ c ∈ s, stampChar c = true) : isNull s = false := by
  rw [isNull]
  cases s with
  | nil => decide
  | cons c s =>
    have hc := h c (by simp)
    have : lower c ≠ 'n' := by
      intro e
      unfold lower at e
      split at e
      · rename_i hu
        have h1 : c.toNat + 32 = 110 := by
          have hv : (c.toNat + 32).isValidChar := .inl (by
            have := hu.2; change c.toNat ≤ 90 at this; omega)
          have hn := toNat_ofNat _ hv
          rw [e] at hn
          exact hn.symm
        have hn : c = 'N' := by
          have h2 : c.toNat = 'N'.toNat := by change c.toNat = 78; omega
          rw [← Char.ofNat_toNat c, h2]; rfl
        rw [hn] at hc; exact absurd hc (by decide)
      · rw [e] at hc; exact absurd hc (by decide)
    simp [this]

theorem trimEnd_stamp (s : Bytes) (hp : Plain s) : trimEnd s = s := by
  rw [trimEnd]
  cases h : s.reverse with
  | nil => rw [List.reverse_eq_nil_iff] at h; rw [h]; rfl
  | cons c r =>
    have : c ∈ s := by rw [← List.mem_reverse, h]; simp
    rw [List.dropWhile_cons_of_neg (by simp [(hp c this).1]), ← h, List.reverse_reverse]

theorem readsAs_stamp (s : Bytes) (h : ∀ c ∈ s, stampChar c = true) (hs : ' ' ∉ s) (h0 : s ≠ []) :
    ReadsAs s (some s) := by
  have hp := stamp_plain s h hs
  refine readsAs_plain s hp h0 _ ?_
  rw [bareElem, trimEnd_stamp s hp, not_null s h]
  rfl

/-- **C74** The server reads the elements of the literal as the texts of the times (C73). -/
theorem C74_arr_server_in (f : Form) (hf : f ∈ bareForms) (ts : List Time) :
    ∃ lit, timeArrValue f.layout (some ts) = some lit ∧
      arrayIn lit = some (ts.map fun t => some (t.format f.layout)) := by
  refine ⟨_, arrValue_some _ _, arrayIn_lit _ _ ts fun t _ => ?_⟩
  exact readsAs_stamp _ (fun c hc => format_stamp f (bare_forms hf) t c hc) (bare_free f hf t)
    (format_ne_nil f (bare_forms hf) t)

theorem elemOut_stamp (s : Bytes) (h : ∀ c ∈ s, stampChar c = true) (hs : ' ' ∉ s) (h0 : s ≠ []) :
    elemOut (some s) = s := by
  have hp := stamp_plain s h hs
  have hq : needsQuote s = false := by
    rw [needsQuote, not_null s h]
    cases s with
    | nil => exact absurd rfl h0
    | cons c s =>
      simp only [List.isEmpty_cons, Bool.or_self, Bool.false_or]
      rw [List.any_eq_false]
      intro x hx
      obtain ⟨h1, h2, h3, h4, h5, h6⟩ := hp x hx
      simp [h1, h2, h3, h4, h5, h6]
  rw [elemOut, if_neg (by simp [hq])]

/-- Reading the server's array of texts that need no quotes. -/
theorem bare_server {α : Type} (l : Layout) (g : α → Bytes) (k : α → Time) (xs : List α) (d : Option (List Time))
    (hc : ∀ x ∈ xs, ∀ c ∈ g x, stampChar c = true) (hs : ∀ x ∈ xs, ' ' ∉ g x) (h0 : ∀ x ∈ xs, g x ≠ [])
    (hp : ∀ x ∈ xs, parseTime l (g x) = .ok (k x)) :
    timeArrScan l d (some (arrayOut (xs.map fun x => some (g x)))) = .ok (some (xs.map k)) := by
  have e : arrayOut (xs.map fun x => some (g x)) = '{' :: (joinWith b!"," (xs.map g) ++ ['}']) := by
    rw [arrayOut, List.map_map, List.cons_append]
    congr 3
    exact List.map_congr_left fun x hx => elemOut_stamp _ (hc x hx) (hs x hx) (h0 x hx)
  rw [e, timeArrScan, scanReset, comma_scan (parseTime l) g k xs (fun x hx hm => ?_) h0 hp]
  · rfl
  · exact absurd (hc x hx _ hm) (by decide)

/-- The characters of the server's texts. -/
theorem num_dig (w n : Nat) (c : Char) (h : c ∈ num w n) : isDig 10 c = true := by
  rcases List.mem_append.1 h with h | h
  · rw [(List.mem_replicate.1 h).2]; decide
  · exact isDig_toDigits 10 n (by omega) (by omega) c h

theorem num_ne_nil (w n : Nat) : num w n ≠ [] := by
  intro h
  have := (List.append_eq_nil_iff.1 h).2
  simp at this

theorem dateBody_chars (d : Date) (c : Char) (h : c ∈ dateBody d) : isDig 10 c = true ∨ c = '-' := by
  simp only [dateBody, yearOut, List.mem_append, List.mem_cons, List.not_mem_nil, or_false] at h
  rcases h with (((h | h) | h) | h) | h
  · exact .inl (num_dig _ _ c h)
  · exact .inr h
  · exact .inl (num_dig _ _ c h)
  · exact .inr h
  · exact .inl (num_dig _ _ c h)

theorem clockOut_chars (k : Clock) (c : Char) (h : c ∈ clockOut k) : isDig 10 c = true ∨ c = ':' ∨ c = '.' := by
  simp only [clockOut, List.mem_append, List.mem_cons, List.not_mem_nil, or_false] at h
  rcases h with ((((h | h) | h) | h) | h) | h
  · exact .inl (num_dig _ _ c h)
  · exact .inr (.inl h)
  · exact .inl (num_dig _ _ c h)
  · exact .inr (.inl h)
  · exact .inl (num_dig _ _ c h)
  · unfold fracOut at h
    simp only at h
    split at h
    · simp at h
    · rcases List.mem_append.1 h with h | h
      · exact .inr (.inr (by simpa using h))
      · exact .inl (num_dig _ _ c (trimZeros_mem h))

theorem zoneOut_chars (o : Int) (c : Char) (h : c ∈ zoneOut o) : isDig 10 c = true ∨ c = ':' ∨ c = '+' ∨ c = '-' := by
  simp only [zoneOut, List.mem_append, List.mem_singleton] at h
  rcases h with ((h | h) | h) | h
  · split at h
    · exact .inr (.inr (.inr h))
    · exact .inr (.inr (.inl h))
  · exact .inl (num_dig _ _ c h)
  · split at h
    · simp at h
    · rcases List.mem_append.1 h with h | h
      · exact .inr (.inl (by simpa using h))
      · exact .inl (num_dig _ _ c h)
  · split at h
    · simp at h
    · rcases List.mem_append.1 h with h | h
      · exact .inr (.inl (by simpa using h))
      · exact .inl (num_dig _ _ c h)

theorem append_ne_nil {a b : Bytes} (h : a ≠ []) : a ++ b ≠ [] := by
  intro e; exact h (List.append_eq_nil_iff.1 e).1

/-- A date that can be read (C73). -/
def Readable (d : Date) : Prop := d.Valid ∧ 1 ≤ d.year ∧ d.year ≤ 9999

theorem dateOut_ad {d : Date} (h : 1 ≤ d.year) : dateOut d = dateBody d := by
  rw [dateOut, bcOut, if_pos (by omega), List.append_nil]

/-- **C74** A date[] of the server. -/
theorem C74_date_server_partial (ds : List Date) (h : ∀ d ∈ ds, Readable d) (dest : Option (List Time)) :
    timeArrScan dateLayout dest (some (arrayOut (ds.map fun d => some (dateOut d)))) =
      .ok (some (ds.map fun d => goTime d midnight 0)) := by
  refine bare_server dateLayout dateOut _ ds dest ?_ ?_ ?_ ?_
  · intro d hd c hc
    rw [dateOut_ad (h d hd).2.1] at hc
    rcases dateBody_chars d c hc with e | e
    · exact dig_stamp e
    · rw [e]; decide
  · intro d hd hc
    rw [dateOut_ad (h d hd).2.1] at hc
    rcases dateBody_chars d _ hc with e | e <;> exact absurd e (by decide)
  · intro d hd
    rw [dateOut_ad (h d hd).2.1]
    simp only [dateBody, List.append_assoc]
    exact append_ne_nil (num_ne_nil _ _)
  · intro d hd
    have := (C73_scan_date d (h d hd).1).1
    rw [if_pos (h d hd).2] at this
    exact this

/-- **C74** A time[] of the server. -/
theorem C74_time_server_partial (cs : List Clock) (h : ∀ c ∈ cs, c.Valid ∧ c.hour < 24) (dest : Option (List Time)) :
    timeArrScan timeLayout dest (some (arrayOut (cs.map fun c => some (clockOut c)))) =
      .ok (some (cs.map fun c => goTime noDate c 0)) := by
  refine bare_server timeLayout clockOut _ cs dest ?_ ?_ ?_ ?_
  · intro k _ c hc
    rcases clockOut_chars k c hc with e | e | e
    · exact dig_stamp e
    · rw [e]; decide
    · rw [e]; decide
  · intro k _ hc
    rcases clockOut_chars k _ hc with e | e | e <;> exact absurd e (by decide)
  · intro k _
    simp only [clockOut, List.append_assoc]
    exact append_ne_nil (num_ne_nil _ _)
  · intro k hk
    rw [C73_scan_time k (h k hk).1, if_pos (h k hk).2]

/-- **C74** A timetz[] of the server can be read only if every offset has minutes. -/
theorem C74_timetz_server_partial (cs : List (Clock × Int))
    (h : ∀ c ∈ cs, c.1.Valid ∧ c.1.hour < 24 ∧ c.2.natAbs < 16 * 3600 ∧ c.2 % 3600 ≠ 0 ∧ c.2 % 60 = 0)
    (dest : Option (List Time)) :
    timeArrScan timetzLayout dest (some (arrayOut (cs.map fun c => some (timetzOut c.1 c.2)))) =
      .ok (some (cs.map fun c => goTime noDate c.1 c.2)) := by
  refine bare_server timetzLayout (fun c : Clock × Int => timetzOut c.1 c.2) _ cs dest ?_ ?_ ?_ ?_
  · intro k _ c hc
    rcases List.mem_append.1 hc with hc | hc
    · rcases clockOut_chars _ c hc with e | e | e
      · exact dig_stamp e
      · rw [e]; decide
      · rw [e]; decide
    · rcases zoneOut_chars _ c hc with e | e | e | e
      · exact dig_stamp e
      · rw [e]; decide
      · rw [e]; decide
      · rw [e]; decide
  · intro k _ hc
    rcases List.mem_append.1 hc with hc | hc
    · rcases clockOut_chars _ _ hc with e | e | e <;> exact absurd e (by decide)
    · rcases zoneOut_chars _ _ hc with e | e | e | e <;> exact absurd e (by decide)
  · intro k _
    simp only [timetzOut, clockOut, List.append_assoc]
    exact append_ne_nil (num_ne_nil _ _)
  · intro k hk
    obtain ⟨h1, h2, h3, h4, h5⟩ := h k hk
    rw [C73_scan_timetz k.1 h1 k.2 h3, if_pos ⟨h2, h4, h5⟩]

/-! ### Errors -/

theorem parseChunk_no_panic (t : Time) (c : Chunk) (s : Bytes) : parseChunk t c s ≠ .panic := by
  have hg : ∀ b l s, getnumLt b l s ≠ .panic := by
    intro b l s; unfold getnumLt; split
    · split <;> simp
    · simp
  have hz : ∀ a b c, zoneValue a b c ≠ .panic := by
    intro a b c; unfold zoneValue; split
    · split
      · simp
      · split
        · simp
        · split <;> simp
    · simp
  have hb : ∀ {α β : Type} {r : SR α} {f : α → SR β}, r ≠ .panic → (∀ a, f a ≠ .panic) → r.bind f ≠ .panic := by
    intro α β r f h1 h2; cases r with
    | ok a => exact h2 a
    | err e => simp [Res.bind]
    | panic => exact absurd rfl h1
  have hm : ∀ {α β : Type} {r : SR α} {f : α → β}, r ≠ .panic → r.map f ≠ .panic := by
    intro α β r f h1; cases r with
    | ok a => simp [Res.map]
    | err e => simp [Res.map]
    | panic => exact absurd rfl h1
  unfold parseChunk
  split
  · split
    · split <;> simp
    · simp
  · exact hb (hg _ _ _) fun p => by split <;> simp
  · exact hm (hg _ _ _)
  · exact hm (hg _ _ _)
  · exact hm (hg _ _ _)
  · exact hm (hg _ _ _)
  · split
    · split <;> simp
    · simp
  · split
    · exact hm (hz _ _ _)
    · simp
  · split
    · split
      · exact hm (hz _ _ _)
      · simp
    · simp
  · split
    · split
      · simp
      · split <;> simp
    · split
      · split <;> simp
      · simp

theorem parseTime_no_panic (l : Layout) (s : Bytes) : parseTime l s ≠ .panic := by
  have h : ∀ (l : Layout) (t : Time) (s : Bytes), parseChunks t l s ≠ .panic := by
    intro l
    induction l with
    | nil => intro t s; unfold parseChunks; split <;> simp
    | cons c l ih =>
      intro t s
      rw [parseChunks]
      cases hp : parseChunk t c s with
      | ok p => exact ih p.1 p.2
      | err e => simp [Res.bind]
      | panic => exact absurd hp (parseChunk_no_panic t c s)
  rw [parseTime]
  cases hp : parseChunks {} l s with
  | ok t => simp only [Res.bind]; split <;> simp
  | err e => simp [Res.bind]
  | panic => exact absurd hp (h l _ s)

/-- **C74** A NULL in a date[], time[] or timetz[] is an error. -/
theorem C74_null_elem (f : Form) (hf : f ∈ bareForms) (xs : List (Option Bytes)) (h : none ∈ xs)
    (hc : ∀ s, some s ∈ xs → ',' ∉ s) (d : Option (List Time)) :
    ∃ e, timeArrScan f.layout d (some (arrayOut xs)) = .err e := by
  have hn : ∀ f ∈ bareForms, parseTime f.layout b!"NULL" = .err .time := by decide
  have hfree : ∀ y ∈ xs.map elemOut, ',' ∉ y := by
    intro y hy
    obtain ⟨x, hx, rfl⟩ := List.mem_map.1 hy
    cases x with
    | none => decide
    | some s =>
      have := hc s hx
      rw [elemOut]
      split
      · intro hm
        simp only [quoteOut, List.cons_append, List.mem_cons, List.mem_append, List.mem_flatMap, List.not_mem_nil,
          or_false] at hm
        rcases hm with hm | ⟨c, hc', hm⟩ | hm
        · exact absurd hm (by decide)
        · split at hm
          · rcases List.mem_cons.1 hm with e | e
            · exact absurd e (by decide)
            · rw [List.mem_singleton] at e; rw [e] at this; exact this hc'
          · rw [List.mem_singleton] at hm; rw [hm] at this; exact this hc'
        · exact absurd hm (by decide)
      · exact this
  have h1 : xs.map elemOut ≠ [[]] := by
    intro e
    have : elemOut none ∈ xs.map elemOut := List.mem_map.2 ⟨none, h, rfl⟩
    rw [e] at this
    exact absurd this (by decide)
  rw [arrayOut, List.cons_append, timeArrScan, scanReset, parseCommaArray_lit _ _ _ hfree h1]
  obtain ⟨er, he⟩ := mapRes_err (parseTime f.layout) (xs.map elemOut) (fun s _ => parseTime_no_panic _ s)
    ⟨b!"NULL", List.mem_map.2 ⟨none, h, rfl⟩, fun b => by rw [hn f hf]; simp⟩
  exact ⟨er, by simp [ofParse, Res.bind, he, Res.map]⟩

end Verif.Pgsql
