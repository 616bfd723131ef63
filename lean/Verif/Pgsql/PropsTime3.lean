import Verif.Pgsql.PropsTime2

/- C73: what the server reads from the texts that are written. -/
namespace Verif.Pgsql

open Verif PgServer

/-! ### Splitting -/

theorem splitAt_word (sep : Char) (w : Bytes) (h : sep ∉ w) : splitAt sep w = [w] := by
  induction w with
  | nil => rfl
  | cons c w ih =>
    have hc : c ≠ sep := fun e => h (by simp [e])
    rw [splitAt, if_neg hc, ih (fun hm => h (by simp [hm]))]

theorem splitAt_append (sep : Char) (w r : Bytes) (h : sep ∉ w) :
    splitAt sep (w ++ sep :: r) = w :: splitAt sep r := by
  induction w with
  | nil => simp [splitAt]
  | cons c w ih =>
    have hc : c ≠ sep := fun e => h (by simp [e])
    rw [List.cons_append, splitAt, if_neg hc, ih (fun hm => h (by simp [hm]))]

theorem fixedDigits_free (w n : Nat) (c : Char) (h : isDig 10 c = false) : c ∉ fixedDigits w n := by
  intro hm
  rw [fixedDigits_dig w n c hm] at h
  exact absurd h (by decide)

theorem digitsIn_fixed (w n : Nat) (hw : 0 < w) (h : n < 10 ^ w) : digitsIn (fixedDigits w n) = some n := by
  rw [← parseNat_eq, parseNat_fixed w n hw h]

theorem shortIn_fixed (n : Nat) (h : n < 100) : shortIn (fixedDigits 2 n) = some n := by
  rw [shortIn, if_pos (by rw [length_fixedDigits]; omega), digitsIn_fixed 2 n (by omega) (by omega)]

/-! ### Dates -/

def toDate (t : Time) : Date := { year := t.year, month := t.month, day := t.day }

/-- In milliseconds. -/
def toClock (t : Time) : Clock :=
  { hour := t.hour, minute := t.minute, second := t.second, micro := t.nano / 1000000 * 1000 }

theorem year_text (n : Nat) (h : 1 ≤ n) : digitsIn (appendInt (n : Int) 4) = some n ∧
    4 ≤ (appendInt (n : Int) 4).length ∧ ∀ c, isDig 10 c = false → c ∉ appendInt (n : Int) 4 := by
  by_cases hn : n < 10 ^ 4
  · rw [appendInt_nat n 4 hn]
    exact ⟨digitsIn_fixed 4 n (by omega) hn, by rw [length_fixedDigits]; omega, fun c hc => fixedDigits_free 4 n c hc⟩
  · have e : appendInt (n : Int) 4 = Nat.toDigits 10 n := by
      simp only [appendInt, Int.natAbs_natCast]
      rw [if_neg (by omega), if_neg hn, List.nil_append]
    rw [e]
    refine ⟨by rw [← parseNat_eq, parseNat_toDigits 10 n (by omega) (by omega)], ?_, ?_⟩
    · have := Nat.length_toDigits_le_iff (b := 10) (n := n) (k := 4) (by omega) (by omega)
      omega
    · intro c hc hm
      rw [isDig_toDigits 10 n (by omega) (by omega) c hm] at hc
      exact absurd hc (by decide)

theorem format_date (t : Time) : t.format dateLayout =
    appendInt t.year 4 ++ '-' :: (appendInt t.month 2 ++ '-' :: appendInt t.day 2) := by
  simp [dateLayout, format_cons, format_nil, formatChunk]

/-- **C73** The server reads the date that was written. -/
theorem C73_write_date_partial (t : Time) (hv : t.Valid) (h1 : 1 ≤ t.year) (h2 : t.year ≤ 294276) :
    dateIn (t.format dateLayout) = some (toDate t) := by
  obtain ⟨n, hn⟩ : ∃ n : Nat, t.year = (n : Int) := ⟨t.year.toNat, by omega⟩
  have hm := hv.month
  have hd := hv.day
  have hd31 := hv.day_le
  have hy := year_text n (by omega)
  rw [format_date, appendInt_nat t.month 2 (by omega), appendInt_nat t.day 2 (by omega), hn, dateIn,
    splitAt_append '-' _ _ (hy.2.2 '-' (by decide)), splitAt_append '-' _ _ (fixedDigits_free _ _ '-' (by decide)),
    splitAt_word '-' _ (fixedDigits_free _ _ '-' (by decide))]
  simp only [hy.1, shortIn_fixed t.month (by omega), shortIn_fixed t.day (by omega)]
  rw [if_pos]
  · simp [toDate, hn]
  · refine ⟨hy.2.1, by omega, by omega, hm.1, hm.2, hd.1, ?_⟩
    rw [← hn, daysIn_eq t.year t.month hm.1 hm.2]
    exact hd.2

/-! ### Times of day -/

theorem fracIn_value (ds : Bytes) (h0 : ds.length ≠ 0) (h6 : ds.length ≤ 6) (hd : ∀ c ∈ ds, isDig 10 c = true) :
    ∃ us, fracIn ds = some us ∧ fracValue ds = us * 1000 := by
  refine ⟨Nat.ofDigitChars 10 ds 0 * 10 ^ (6 - ds.length), ?_, ?_⟩
  · rw [fracIn, if_pos h6, ← parseNat_eq, parseNat, if_neg h0, if_pos (List.all_eq_true.2 hd)]; rfl
  · rw [fracValue, List.take_of_length_le (by omega), show 9 - ds.length = (6 - ds.length) + 3 by omega, Nat.pow_add,
      ← Nat.mul_assoc]

theorem secondsIn_format (s n : Nat) (hs : s < 60) (hn : n < 1000000000) :
    secondsIn (fixedDigits 2 s ++ formatFrac n) = some (s, n / 1000000 * 1000) := by
  have hlt : n / 10 ^ 6 < 10 ^ 3 := by omega
  have hv : fracValue (trimZeros (fixedDigits 3 (n / 10 ^ 6))) = n / 1000000 * 1000000 := by
    rw [fracValue_trim _ (by rw [length_fixedDigits]; omega), fracValue_fixed 3 _ (by omega) hlt]
  have hd : ∀ c ∈ trimZeros (fixedDigits 3 (n / 10 ^ 6)), isDig 10 c = true :=
    fun c hc => fixedDigits_dig _ _ c (trimZeros_mem hc)
  have hl : (trimZeros (fixedDigits 3 (n / 10 ^ 6))).length ≤ 3 := by
    obtain ⟨k, hk⟩ := trimZeros_split (fixedDigits 3 (n / 10 ^ 6))
    have := congrArg List.length hk
    rw [length_fixedDigits, List.length_append] at this
    omega
  rw [format_frac]
  split
  · rename_i h
    have he : trimZeros (fixedDigits 3 (n / 10 ^ 6)) = [] := List.length_eq_zero_iff.1 h
    have : n / 1000000 * 1000000 = 0 := by rw [← hv, he]; rfl
    rw [List.append_nil, secondsIn, splitAt_word '.' _ (fixedDigits_free _ _ '.' (by decide))]
    simp only [shortIn_fixed s (by omega), Option.map_some]
    congr 2; omega
  · rename_i h
    obtain ⟨us, h1, h2⟩ := fracIn_value _ h (by omega) hd
    rw [secondsIn, splitAt_append '.' _ _ (fixedDigits_free _ _ '.' (by decide)), splitAt_word '.' _ (by
      intro hm; exact absurd (hd '.' hm) (by decide))]
    simp only [shortIn_fixed s (by omega), h1]
    congr 2; omega

theorem format_time (t : Time) : t.format timeLayout =
    appendInt t.hour 2 ++ ':' :: (appendInt t.minute 2 ++ ':' :: (appendInt t.second 2 ++ formatFrac t.nano)) := by
  simp [timeLayout, format_cons, format_nil, formatChunk]

theorem frac_chars (n : Nat) (c : Char) (h : c ∈ formatFrac n) : isDig 10 c = true ∨ c = '.' := by
  rw [format_frac] at h
  split at h
  · simp at h
  · rcases List.mem_cons.1 h with h | h
    · exact .inr h
    · exact .inl (fixedDigits_dig _ _ c (trimZeros_mem h))

/-- Every character of a time is a digit, a colon or a point. -/
theorem time_chars (t : Time) (hv : t.Valid) (c : Char) (h : c ∈ t.format timeLayout) :
    isDig 10 c = true ∨ c = ':' ∨ c = '.' := by
  have h1 := hv.hour
  have h2 := hv.minute
  have h3 := hv.second
  rw [format_time, appendInt_nat t.hour 2 (by omega), appendInt_nat t.minute 2 (by omega),
    appendInt_nat t.second 2 (by omega)] at h
  simp only [List.mem_append, List.mem_cons] at h
  rcases h with h | h | h | h | h | h
  · exact .inl (fixedDigits_dig _ _ c h)
  · exact .inr (.inl h)
  · exact .inl (fixedDigits_dig _ _ c h)
  · exact .inr (.inl h)
  · exact .inl (fixedDigits_dig _ _ c h)
  · rcases frac_chars _ c h with h | h
    · exact .inl h
    · exact .inr (.inr h)

/-- **C73** The server reads the time that was written, in milliseconds. -/
theorem C73_write_time_partial (t : Time) (hv : t.Valid) : clockIn (t.format timeLayout) = some (toClock t) := by
  have h1 := hv.hour
  have h2 := hv.minute
  have h3 := hv.second
  have hc : ':' ∉ appendInt (t.second : Int) 2 ++ formatFrac t.nano := by
    rw [appendInt_nat t.second 2 (by omega)]
    intro hm
    rcases List.mem_append.1 hm with h | h
    · exact fixedDigits_free _ _ ':' (by decide) h
    · rcases frac_chars _ _ h with h | h
      · exact absurd h (by decide)
      · exact absurd h (by decide)
  rw [format_time, clockIn, appendInt_nat t.hour 2 (by omega), appendInt_nat t.minute 2 (by omega),
    splitAt_append ':' _ _ (fixedDigits_free _ _ ':' (by decide)), splitAt_append ':' _ _ (fixedDigits_free _ _ ':' (by decide)),
    splitAt_word ':' _ hc, appendInt_nat t.second 2 (by omega)]
  simp only [shortIn_fixed t.hour (by omega), shortIn_fixed t.minute (by omega),
    secondsIn_format t.second t.nano h3 hv.nano]
  rw [if_pos ⟨h1, h2, h3⟩]
  rfl

/-! ### Timestamps -/

theorem date_chars (t : Time) (hv : t.Valid) (h1 : 1 ≤ t.year) (c : Char) (h : c ∈ t.format dateLayout) :
    isDig 10 c = true ∨ c = '-' := by
  obtain ⟨n, hn⟩ : ∃ n : Nat, t.year = (n : Int) := ⟨t.year.toNat, by omega⟩
  have hm := hv.month
  have hd31 := hv.day_le
  rw [format_date, appendInt_nat t.month 2 (by omega), appendInt_nat t.day 2 (by omega), hn] at h
  simp only [List.mem_append, List.mem_cons] at h
  rcases h with h | h | h | h | h
  · by_cases hc : isDig 10 c = true
    · exact .inl hc
    · exact absurd h ((year_text n (by omega)).2.2 c (by simpa using hc))
  · exact .inr h
  · exact .inl (fixedDigits_dig _ _ c h)
  · exact .inr h
  · exact .inl (fixedDigits_dig _ _ c h)

theorem format_timestamp (t : Time) : t.format timestampLayout = t.format dateLayout ++ ' ' :: t.format timeLayout := by
  rw [show timestampLayout = dateLayout ++ (.lit ' ' :: timeLayout) from rfl, format_append]; rfl

/-- **C73** The server reads the timestamp that was written, in milliseconds. -/
theorem C73_write_timestamp_partial (t : Time) (hv : t.Valid) (h1 : 1 ≤ t.year) (h2 : t.year ≤ 294276) :
    timestampIn (t.format timestampLayout) = some (toDate t, toClock t) := by
  have hs : ' ' ∉ t.format dateLayout := by
    intro h; rcases date_chars t hv h1 _ h with h | h <;> exact absurd h (by decide)
  have hs2 : ' ' ∉ t.format timeLayout := by
    intro h; rcases time_chars t hv _ h with h | h | h <;> exact absurd h (by decide)
  rw [format_timestamp, timestampIn, splitAt_append ' ' _ _ hs, splitAt_word ' ' _ hs2]
  simp only [C73_write_date_partial t hv h1 h2, C73_write_time_partial t hv]

/-! ### Offsets -/

theorem zoneIn_of (o : Int) (r : Bytes) (n : Nat) (hn : n < 16 * 3600)
    (hr : zoneSpan r = some n) (hz : o.natAbs / 60 = 0 → n = 0) :
    zoneIn (zoneSign o :: r) = some (signed o n) := by
  rw [zoneIn]
  simp only [hr]
  rw [if_neg (by omega), zoneSign_eq]
  unfold signed
  by_cases ho : o < 0
  · by_cases h2 : o.natAbs / 60 = 0
    · have := hz h2
      simp [ho, h2, this]
    · simp [ho, h2]
  · simp [ho]

theorem signed_tdiv (o : Int) (k : Nat) (hk : 0 < k) : signed o (o.natAbs / k * k) = o.tdiv k * k := by
  rw [tdiv_sign o k hk]
  unfold signed
  split <;> simp [Int.neg_mul]

theorem zoneIn_hour (t : Time) (ho : t.offset.natAbs < 16 * 3600) :
    zoneIn (formatChunk t .zoneHour) = some (t.offset.tdiv 3600 * 3600) := by
  rw [formatChunk, zoneMinutes_abs, appendInt_nat _ 2 (by omega)]
  rw [show (3600 : Int) = ((3600 : Nat) : Int) from rfl, ← signed_tdiv t.offset 3600 (by omega)]
  refine zoneIn_of t.offset _ _ (by omega) ?_ (by omega)
  rw [zoneSpan, splitAt_word ':' _ (fixedDigits_free _ _ ':' (by decide))]
  simp only [shortIn_fixed (t.offset.natAbs / 60 / 60) (by omega), Option.map_some]
  exact congrArg some (by omega)

theorem zoneIn_colon (t : Time) (ho : t.offset.natAbs < 16 * 3600) :
    zoneIn (formatChunk t .zoneColon) = some (t.offset.tdiv 60 * 60) := by
  rw [formatChunk, zoneMinutes_abs, appendInt_nat _ 2 (by omega), appendInt_nat _ 2 (by omega)]
  rw [show (60 : Int) = ((60 : Nat) : Int) from rfl, ← signed_tdiv t.offset 60 (by omega), List.append_assoc,
    List.cons_append]
  refine zoneIn_of t.offset _ _ (by omega) ?_ (by omega)
  rw [zoneSpan, List.singleton_append, splitAt_append ':' _ _ (fixedDigits_free _ _ ':' (by decide)),
    splitAt_word ':' _ (fixedDigits_free _ _ ':' (by decide))]
  simp only [shortIn_fixed (t.offset.natAbs / 60 / 60) (by omega), shortIn_fixed (t.offset.natAbs / 60 % 60) (by omega)]
  rw [if_pos (by omega)]
  congr 1; omega

theorem sign_split (t : Time) (hv : t.Valid) (o : Int) (r : Bytes) :
    (t.format timeLayout ++ zoneSign o :: r).takeWhile (fun c => !isSign c) = t.format timeLayout ∧
    (t.format timeLayout ++ zoneSign o :: r).dropWhile (fun c => !isSign c) = zoneSign o :: r := by
  have h1 : ∀ c ∈ t.format timeLayout, (!isSign c) = true := by
    intro c hc
    rcases time_chars t hv c hc with h | h | h
    · have hp : c ≠ '+' := by intro e; rw [e] at h; exact absurd h (by decide)
      have hm : c ≠ '-' := by intro e; rw [e] at h; exact absurd h (by decide)
      simp [isSign, hp, hm]
    · rw [h]; decide
    · rw [h]; decide
  have h2 : (!isSign (zoneSign o)) = false := by
    rcases zoneSign_cases o with h | h <;> rw [h] <;> decide
  rw [List.takeWhile_append_of_pos h1, List.dropWhile_append_of_pos h1]
  simp [h2]

theorem timetzIn_zone (t : Time) (hv : t.Valid) (z : Bytes) (r : Bytes) (o : Int) (hz : z = zoneSign t.offset :: r)
    (ho : zoneIn z = some o) : timetzIn (t.format timeLayout ++ z) = some (toClock t, o) := by
  subst hz
  have h := sign_split t hv t.offset r
  rw [timetzIn, h.1, h.2, C73_write_time_partial t hv, ho]

/-- **C73** The server reads the time with time zone that was written, in milliseconds and with the minutes of
the offset. -/
theorem C73_write_timetz_partial (t : Time) (hv : t.Valid) (ho : t.offset.natAbs < 16 * 3600) :
    timetzIn (t.format timetzLayout) = some (toClock t, t.offset.tdiv 60 * 60) := by
  rw [show timetzLayout = timeLayout ++ [.zoneColon] from rfl, format_append]
  refine timetzIn_zone t hv _ (t.format [.zoneColon]).tail _ ?_
    (by rw [format_cons, format_nil, List.append_nil]; exact zoneIn_colon t ho)
  rw [format_cons, format_nil, List.append_nil, formatChunk, List.append_assoc, List.cons_append]; rfl

/-- **C73** The server reads the date, the time and the hours of the offset that were written. The rest of the
offset is lost, so that another instant is meant. -/
theorem C73_write_timestamptz_partial (t : Time) (hv : t.Valid) (h1 : 1 ≤ t.year) (h2 : t.year ≤ 294276)
    (ho : t.offset.natAbs < 16 * 3600) :
    timestamptzIn (t.format timestamptzLayout) = some (toDate t, toClock t, t.offset.tdiv 3600 * 3600) := by
  have hs : ' ' ∉ t.format dateLayout := by
    intro h; rcases date_chars t hv h1 _ h with h | h <;> exact absurd h (by decide)
  have hs2 : ' ' ∉ t.format timeLayout ++ t.format [.zoneHour] := by
    intro h
    rcases List.mem_append.1 h with h | h
    · rcases time_chars t hv _ h with h | h | h <;> exact absurd h (by decide)
    · rw [format_cons, format_nil, List.append_nil, formatChunk, zoneMinutes_abs, appendInt_nat _ 2 (by omega)] at h
      rcases List.mem_cons.1 h with h | h
      · rcases zoneSign_cases t.offset with h' | h' <;> rw [h'] at h <;> exact absurd h (by decide)
      · exact fixedDigits_free _ _ ' ' (by decide) h
  have hz : timetzIn (t.format timeLayout ++ t.format [.zoneHour]) =
      some (toClock t, t.offset.tdiv 3600 * 3600) := by
    refine timetzIn_zone t hv _ (t.format [.zoneHour]).tail _ ?_
      (by rw [format_cons, format_nil, List.append_nil]; exact zoneIn_hour t ho)
    rw [format_cons, format_nil, List.append_nil, formatChunk]; rfl
  rw [show timestamptzLayout = dateLayout ++ (.lit ' ' :: (timeLayout ++ [.zoneHour])) from rfl, format_append,
    format_cons, formatChunk, List.singleton_append, format_append, timestamptzIn, splitAt_append ' ' _ _ hs,
    splitAt_word ' ' _ hs2]
  simp only [C73_write_date_partial t hv h1 h2, hz]

/-! ### Cases -/

def demoTime : Time :=
  { year := 2004, month := 2, day := 29, hour := 10, minute := 23, second := 54, nano := 120000000 }

/-- The theorems are not vacuous. -/
theorem C73_example : demoTime.Valid ∧
    demoTime.format timestampLayout = b!"2004-02-29 10:23:54.12" ∧
    parseTime timestampLayout b!"2004-02-29 10:23:54.123456" = .ok { demoTime with nano := 123456000 } ∧
    timestampOut { year := 2004, month := 2, day := 29 } { hour := 10, minute := 23, second := 54, micro := 123456 } =
      b!"2004-02-29 10:23:54.123456" ∧
    timestamptzOut { year := 2004, month := 2, day := 29 } { hour := 10, minute := 23, second := 54 } (-12600) =
      b!"2004-02-29 10:23:54-03:30" ∧
    { demoTime with offset := 7200 }.format timestamptzLayout = b!"2004-02-29 10:23:54.12+02" ∧
    parseTime timestampLayout b!"2003-02-29 10:23:54" = .err .time := by
  refine ⟨⟨by decide, by decide, by decide, by decide, by decide, by decide⟩, ?_⟩
  decide +kernel

/-- **C73** Microseconds that the server sent are not sent back. -/
theorem C73_not_micro : ∃ t, parseTime timestampLayout b!"2004-02-29 10:23:54.123456" = .ok t ∧
    t.format timestampLayout = b!"2004-02-29 10:23:54.123" := by
  refine ⟨{ demoTime with nano := 123456000 }, ?_, ?_⟩ <;> decide +kernel

/-- **C73** Half past ten in India is written as half past ten one time zone further west: half an hour later.
And what the server writes in that zone cannot be read. -/
theorem C73_not_offset :
    { demoTime with offset := 19800 }.format timestamptzLayout = b!"2004-02-29 10:23:54.12+05" ∧
    parseTime timestamptzLayout b!"2004-02-29 10:23:54.12+05" = .ok { demoTime with offset := 18000 } ∧
    { demoTime with offset := 18000 }.seconds - { demoTime with offset := 19800 }.seconds = 1800 ∧
    parseTime timestamptzLayout b!"2004-02-29 10:23:54.12+05:30" = .err .time := by decide +kernel

/-- **C73** A time with time zone that was written is read back, but not once the server has written it. -/
theorem C73_not_timetz :
    let t : Time := { hour := 21, minute := 5, second := 33, offset := -28800 }
    t.format timetzLayout = b!"21:05:33-08:00" ∧
    parseTime timetzLayout (t.format timetzLayout) = .ok t ∧
    (timetzIn (t.format timetzLayout)).map (fun p => timetzOut p.1 p.2) = some b!"21:05:33-08" ∧
    parseTime timetzLayout b!"21:05:33-08" = .err .time := by decide +kernel

/-- **C73** Years that do not have four digits. -/
theorem C73_not_years :
    parseTime dateLayout (dateOut { year := 10000, month := 1, day := 1 }) = .err .time ∧
    parseTime dateLayout (dateOut { year := -43, month := 3, day := 15 }) = .err .time ∧
    dateOut { year := -43, month := 3, day := 15 } = b!"0044-03-15 BC" ∧
    Time.format { year := 10000 } dateLayout = b!"10000-01-01" ∧
    parseTime dateLayout b!"10000-01-01" = .err .time ∧
    Time.format { year := -43, month := 3, day := 15 } dateLayout = b!"-0043-03-15" ∧
    dateIn b!"-0043-03-15" = none := by decide +kernel

end Verif.Pgsql
