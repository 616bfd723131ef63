import Verif.Pgsql.PropsTime
import Verif.Pgsql.SpecTime

/- C73: reading what the server writes. -/
namespace Verif.Pgsql

open Verif PgServer

theorem num_eq (w n : Nat) (hw : 0 < w) (h : n < 10 ^ w) : num w n = fixedDigits w n := by
  induction w generalizing n with
  | zero => omega
  | succ w ih =>
    by_cases hn : n < 10
    · have h1 : Nat.toDigits 10 n = [Nat.digitChar n] := Nat.toDigits_of_lt_base hn
      have h2 : n % 10 = n := Nat.mod_eq_of_lt hn
      have h3 : n / 10 = 0 := Nat.div_eq_of_lt hn
      have hz : ∀ k, fixedDigits k 0 = List.replicate k '0' := by
        intro k
        induction k with
        | zero => rfl
        | succ k ihk => rw [fixedDigits, Nat.zero_div, ihk, List.replicate_succ']; rfl
      rw [num, h1, fixedDigits, h2, h3, hz]
      simp
    · have hw' : 0 < w := by
        rcases Nat.eq_zero_or_pos w with h0 | h0
        · subst h0; simp at h; omega
        · exact h0
      have h1 : Nat.toDigits 10 n = Nat.toDigits 10 (n / 10) ++ [Nat.digitChar (n % 10)] :=
        Nat.toDigits_of_base_le (by omega) (by omega)
      have hd : n / 10 < 10 ^ w := by rw [Nat.pow_succ] at h; omega
      rw [fixedDigits, ← ih (n / 10) hw' hd, num, num, h1, List.length_append, List.length_singleton,
        Nat.add_sub_add_right, List.append_assoc]

theorem daysIn_eq (y : Int) (m : Nat) (h1 : 1 ≤ m) (h2 : m ≤ 12) : monthLength y m = daysIn y m := by
  have hl : leapYear y = leap y := by
    simp only [leapYear, leap]
    by_cases h : y % 100 = 0
    · have : y % 4 = 0 := by omega
      simp [h, this]
    · simp [h]
  have : m = 1 ∨ m = 2 ∨ m = 3 ∨ m = 4 ∨ m = 5 ∨ m = 6 ∨ m = 7 ∨ m = 8 ∨ m = 9 ∨ m = 10 ∨ m = 11 ∨ m = 12 := by
    omega
  rcases this with h | h | h | h | h | h | h | h | h | h | h | h <;> subst h <;>
    simp [monthLength, daysIn, hl]

/-- The Go time with the given fields. -/
def goTime (d : Date) (c : Clock) (o : Int) : Time where
  year := d.year
  month := d.month
  day := d.day
  hour := c.hour
  minute := c.minute
  second := c.second
  nano := c.micro * 1000
  offset := o

/-- The day to which times without a date belong. -/
def noDate : Date := { year := 0, month := 1, day := 1 }
def midnight : Clock := { hour := 0, minute := 0, second := 0 }

/-! ### Dates -/

/-- The text of a date with the given number of the year. -/
theorem dateBody_eq (d : Date) (hm : d.month ≤ 12) (hd : d.day ≤ 31) (n : Nat) (hn : n < 10000)
    (he : yearOut d.year = num 4 n) :
    dateBody d = Time.format { year := n, month := d.month, day := d.day } dateLayout := by
  simp only [dateLayout, format_cons, format_nil, formatChunk]
  rw [dateBody, he, num_eq 4 n (by omega) (by omega), num_eq 2 _ (by omega) (by omega), num_eq 2 _ (by omega) (by omega),
    appendInt_nat n 4 (by omega), appendInt_nat _ 2 (by omega), appendInt_nat _ 2 (by omega)]
  simp [List.append_assoc]

theorem yearOut_ad {y : Int} (h : 0 < y) : yearOut y = num 4 y.toNat := by simp [yearOut, h]

theorem valid_day {d : Date} (hv : d.Valid) : d.day ≤ 31 := by
  have := hv.day.2
  rw [daysIn_eq _ _ hv.month.1 hv.month.2] at this
  exact Nat.le_trans this (daysIn_le _ _)

/-- A year of five digits or more is refused. -/
theorem chunks_long_year (acc : Time) (n : Nat) (hn : 10000 ≤ n) (l : Layout) (s : Bytes) :
    parseChunks acc (.year :: .lit '-' :: l) (num 4 n ++ s) = .err .time := by
  have hl : 5 ≤ (Nat.toDigits 10 n).length := by
    have := Nat.length_toDigits_le_iff (b := 10) (n := n) (k := 4) (by omega) (by omega)
    omega
  have hnum : num 4 n = Nat.toDigits 10 n := by
    rw [num, show 4 - (Nat.toDigits 10 n).length = 0 by omega]; rfl
  have hdig := isDig_toDigits 10 n (by omega) (by omega)
  rw [hnum]
  obtain ⟨a, b, c, d, e, r, he⟩ : ∃ a b c d e r, Nat.toDigits 10 n = a :: b :: c :: d :: e :: r := by
    match h : Nat.toDigits 10 n with
    | [] | [_] | [_, _] | [_, _, _] | [_, _, _, _] => rw [h] at hl; simp at hl
    | a :: b :: c :: d :: e :: r => exact ⟨a, b, c, d, e, r, rfl⟩
  rw [he] at hdig ⊢
  have hall : ∀ x ∈ [a, b, c, d, e], isDig 10 x = true := by
    intro x hx
    have hx' : x ∈ a :: b :: c :: d :: e :: r := by
      simp only [List.mem_cons, List.not_mem_nil, or_false] at hx ⊢
      rcases hx with h | h | h | h | h <;> simp [h]
    exact hdig x hx'
  have hp : parseNat 10 [a, b, c, d] = some (Nat.ofDigitChars 10 [a, b, c, d] 0) := by
    rw [parseNat, if_neg (by simp), if_pos]
    exact List.all_eq_true.2 fun x hx => hall x (by
      simp only [List.mem_cons, List.not_mem_nil, or_false] at hx ⊢
      rcases hx with h | h | h | h <;> simp [h])
  have hy : parseChunk acc .year (a :: b :: c :: d :: e :: r ++ s) =
      .ok ({ acc with year := Nat.ofDigitChars 10 [a, b, c, d] 0 }, e :: (r ++ s)) := by
    simp only [parseChunk, List.cons_append, List.take_succ_cons, List.take_zero, hp, List.length_cons]
    rw [if_neg (by omega)]
    rfl
  rw [parseChunks_cons hy, parseChunks]
  have hne : e ≠ '-' := by
    intro h
    have := hall e (by simp)
    rw [h] at this
    exact absurd this (by decide)
  simp [parseChunk, hne, Res.bind]

theorem chunks_end (t : Time) (s : Bytes) (h : s ≠ []) : parseChunks t [] s = .err .time := by
  cases s with
  | nil => exact absurd rfl h
  | cons c r => simp [parseChunks]

/-- The number that is written for a year. -/
def shownYear (y : Int) : Nat := (if 0 < y then y else 1 - y).toNat

/-- The date and what follows: the fields, or an error if the year has more than four digits. -/
theorem chunks_dateBody (d : Date) (hv : d.Valid) (l : Layout) (s : Bytes) :
    parseChunks {} (dateLayout ++ l) (dateBody d ++ s) =
      if shownYear d.year ≤ 9999 then
        parseChunks { year := shownYear d.year, month := d.month, day := d.day } l s
      else .err .time := by
  have he : yearOut d.year = num 4 (shownYear d.year) := rfl
  split
  · rename_i h
    rw [dateBody_eq d hv.month.2 (valid_day hv) (shownYear d.year) (by omega) he,
      chunks_date { year := shownYear d.year, month := d.month, day := d.day } {} hv.month (valid_day hv)
        (by show (0 : Int) ≤ (shownYear d.year : Int); omega)
        (by show (shownYear d.year : Int) ≤ 9999; omega)]
  · rename_i h
    simp only [dateBody, he, List.append_assoc]
    exact chunks_long_year _ _ (by omega) _ _

theorem parseTime_err {l : Layout} {s : Bytes} (h : parseChunks {} l s = .err .time) : parseTime l s = .err .time := by
  rw [parseTime, h]; rfl

/-- **C73** What is read from a date of the server: the date if its year is from 1 to 9999, otherwise (before
Christ, five digits, infinity) an error. -/
theorem C73_scan_date (d : Date) (hv : d.Valid) :
    parseTime dateLayout (extOut dateOut (.fin d)) =
      (if 1 ≤ d.year ∧ d.year ≤ 9999 then .ok (goTime d midnight 0) else .err .time) ∧
    parseTime dateLayout (extOut dateOut .inf) = .err .time ∧
    parseTime dateLayout (extOut dateOut .negInf) = .err .time := by
  refine ⟨?_, by decide, by decide⟩
  have h := chunks_dateBody d hv [] (bcOut d.year)
  rw [List.append_nil] at h
  simp only [extOut, dateOut]
  by_cases hy : 0 < d.year
  · simp only [bcOut, if_pos hy] at h ⊢
    have hs : (shownYear d.year : Int) = d.year := by rw [shownYear, if_pos hy]; omega
    by_cases h9 : d.year ≤ 9999
    · rw [if_pos (by omega), parseChunks_nil, hs] at h
      rw [if_pos ⟨by omega, h9⟩]
      have hd := hv.day
      rw [daysIn_eq _ _ hv.month.1 hv.month.2] at hd
      exact parseTime_of h hd
    · rw [if_neg (by omega)] at h
      rw [if_neg (by omega)]
      exact parseTime_err h
  · rw [if_neg (by omega)]
    refine parseTime_err ?_
    rw [h]
    split
    · exact chunks_end _ _ (by simp [bcOut, hy])
    · rfl

/-! ### Times of day -/

theorem fracOut_eq (us : Nat) (h : us < 1000000) : fracOut us =
    if (trimZeros (fixedDigits 6 us)).length = 0 then [] else '.' :: trimZeros (fixedDigits 6 us) := by
  rw [fracOut, num_eq 6 us (by omega) (by omega)]
  rfl

theorem parse_fracOut (t : Time) (us : Nat) (hn : us < 1000000) (h0 : t.nano = 0) (r : Bytes) (hr : AfterFrac r) :
    parseChunk t .frac (fracOut us ++ r) = .ok ({ t with nano := us * 1000 }, r) := by
  have hv : fracValue (trimZeros (fixedDigits 6 us)) = us * 1000 := by
    rw [fracValue_trim _ (by rw [length_fixedDigits]; omega), fracValue_fixed 6 _ (by omega) (by omega)]
  rw [fracOut_eq us hn, parse_frac t _ r (fun c hc => fixedDigits_dig _ _ c (trimZeros_mem hc)) hr]
  split
  · rename_i h
    have he : trimZeros (fixedDigits 6 us) = [] := List.length_eq_zero_iff.1 h
    have : us * 1000 = 0 := by rw [← hv, he]; rfl
    rw [this, ← h0]
  · rw [hv]

theorem chunks_clock (c : Clock) (hv : c.Valid) (acc : Time) (ha : acc.nano = 0) (l : Layout) (s : Bytes)
    (hs : AfterFrac s) :
    parseChunks acc (timeLayout ++ l) (clockOut c ++ s) =
      if c.hour < 24 then
        parseChunks
          { acc with hour := c.hour, minute := c.minute, second := c.second, nano := c.micro * 1000 } l s
      else .err .time := by
  have hm := hv.minute
  have hse := hv.second
  split
  · rename_i hh
    simp only [timeLayout, clockOut, List.cons_append, List.nil_append, List.append_assoc]
    rw [num_eq 2 _ (by omega) (by omega), num_eq 2 _ (by omega) (by omega), num_eq 2 _ (by omega) (by omega),
      ← appendInt_nat c.hour 2 (by omega), ← appendInt_nat c.minute 2 (by omega), ← appendInt_nat c.second 2 (by omega),
      parseChunks_cons (parse_hour acc c.hour hh _), parseChunks_cons (parse_lit _ ':' (by decide) _),
      parseChunks_cons (parse_minute _ c.minute hm _), parseChunks_cons (parse_lit _ ':' (by decide) _),
      parseChunks_cons (parse_second _ c.second hse _),
      parseChunks_cons (parse_fracOut _ c.micro hv.micro (by simpa using ha) _ hs)]
  · rename_i hh
    have h24 : c.hour = 24 := by
      rcases hv.hour with h | h
      · omega
      · rw [h]
    simp only [timeLayout, clockOut, List.cons_append, List.append_assoc, h24]
    rw [num_eq 2 24 (by omega) (by omega), parseChunks]
    simp only [parseChunk, getnumLt]
    rw [getnum_two false 24 (by omega)]
    rfl

/-- **C73** A time of the server is read as it is, with its microseconds; 24:00:00 is an error. -/
theorem C73_scan_time (c : Clock) (hv : c.Valid) :
    parseTime timeLayout (clockOut c) = if c.hour < 24 then .ok (goTime noDate c 0) else .err .time := by
  have h := chunks_clock c hv {} rfl [] [] afterFrac_nil
  rw [List.append_nil, List.append_nil] at h
  split
  · rename_i hh
    rw [if_pos hh] at h
    exact parseTime_of h ⟨by show 1 ≤ 1; decide, by show 1 ≤ daysIn 0 1; decide⟩
  · rename_i hh
    rw [if_neg hh] at h
    exact parseTime_err h

/-! ### Timestamps -/

theorem clock_head (c : Clock) (hv : c.Valid) (r : Bytes) : (clockOut c ++ r).head? ≠ some ' ' := by
  have : c.hour < 100 := by
    rcases hv.hour with h | h
    · omega
    · rw [h]; decide
  simp only [clockOut, List.append_assoc]
  rw [num_eq 2 _ (by omega) (by omega), ← appendInt_nat _ 2 (by omega)]
  exact head_appendInt _ this _

theorem afterFrac_bc (y : Int) : AfterFrac (bcOut y) := by
  intro c hc
  unfold bcOut at hc
  split at hc
  · simp at hc
  · simp at hc; rw [← hc]; decide

/-- Date, space, time, and the rest. -/
theorem chunks_stamp (d : Date) (hd : d.Valid) (c : Clock) (hc : c.Valid) (h24 : c.hour < 24) (l : Layout)
    (s : Bytes) (hs : AfterFrac s) :
    parseChunks {} (timestampLayout ++ l) (dateBody d ++ (b!" " ++ (clockOut c ++ s))) =
      if shownYear d.year ≤ 9999 then
        parseChunks (goTime { d with year := shownYear d.year } c 0) l s
      else .err .time := by
  have e : timestampLayout ++ l = dateLayout ++ (.lit ' ' :: (timeLayout ++ l)) := rfl
  rw [e, chunks_dateBody d hd]
  split
  · rw [List.singleton_append, parseChunks_cons (parse_space _ _ (clock_head c hc _)),
      chunks_clock c hc _ rfl l s hs, if_pos h24]
    rfl
  · rfl

theorem goTime_day {d : Date} (hv : d.Valid) (c : Clock) (o : Int) :
    1 ≤ (goTime d c o).day ∧ (goTime d c o).day ≤ daysIn (goTime d c o).year (goTime d c o).month := by
  have hd := hv.day
  rw [daysIn_eq _ _ hv.month.1 hv.month.2] at hd
  exact hd

/-- **C73** What is read from a timestamp of the server: the same, with its microseconds, if the year is from 1
to 9999, otherwise an error. -/
theorem C73_scan_timestamp (d : Date) (hd : d.Valid) (c : Clock) (hc : c.Valid) (h24 : c.hour < 24) :
    parseTime timestampLayout (timestampOut d c) =
      if 1 ≤ d.year ∧ d.year ≤ 9999 then .ok (goTime d c 0) else .err .time := by
  have h := chunks_stamp d hd c hc h24 [] (bcOut d.year) (afterFrac_bc _)
  rw [List.append_nil] at h
  have e : timestampOut d c = dateBody d ++ (b!" " ++ (clockOut c ++ bcOut d.year)) := by
    simp [timestampOut, List.append_assoc]
  rw [e]
  by_cases hy : 0 < d.year
  · simp only [bcOut, if_pos hy] at h ⊢
    have hs : (shownYear d.year : Int) = d.year := by rw [shownYear, if_pos hy]; omega
    by_cases h9 : d.year ≤ 9999
    · rw [if_pos (by omega), parseChunks_nil, hs] at h
      rw [if_pos ⟨by omega, h9⟩]
      exact parseTime_of h (goTime_day hd c 0)
    · rw [if_neg (by omega)] at h
      rw [if_neg (by omega)]
      exact parseTime_err h
  · rw [if_neg (by omega)]
    refine parseTime_err ?_
    rw [h]
    split
    · exact chunks_end _ _ (by simp [bcOut, hy])
    · rfl

/-! ### Offsets -/

def plusMinus (o : Int) : Char := if o < 0 then '-' else '+'

theorem plusMinus_cases (o : Int) : plusMinus o = '+' ∨ plusMinus o = '-' := by
  unfold plusMinus; split <;> simp

def signed (o : Int) (n : Nat) : Int := if o < 0 then -(n : Int) else (n : Int)

theorem zoneValue_sign (o : Int) (h m : Nat) (hh : h ≤ 24) (hm : m < 60) :
    zoneValue (plusMinus o) (fixedDigits 2 h) (fixedDigits 2 m) = .ok (signed o ((h * 60 + m) * 60)) := by
  have g1 := getnum_two true h (by omega) []
  have g2 := getnum_two true m (by omega) []
  rw [List.append_nil] at g1 g2
  simp only [zoneValue, g1, g2]
  rw [if_neg (by omega)]
  unfold plusMinus signed
  by_cases ho : o < 0 <;> simp [ho]

theorem signed_abs (o : Int) : signed o o.natAbs = o := by unfold signed; split <;> omega

/-- The minutes and seconds of an offset. -/
def zoneTail (a : Nat) : Bytes :=
  (if a % 3600 = 0 then [] else b!":" ++ num 2 (a / 60 % 60)) ++
    (if a % 60 = 0 then [] else b!":" ++ num 2 (a % 60))

theorem zoneOut_eq (o : Int) (h : o.natAbs < 16 * 3600) :
    zoneOut o = plusMinus o :: (fixedDigits 2 (o.natAbs / 3600) ++ zoneTail o.natAbs) := by
  simp only [zoneOut, zoneTail, plusMinus]
  rw [num_eq 2 (o.natAbs / 3600) (by omega) (by omega)]
  simp [List.append_assoc]

theorem zoneTail_nil (a : Nat) : zoneTail a = [] ↔ a % 3600 = 0 := by
  unfold zoneTail
  by_cases h : a % 3600 = 0
  · have : a % 60 = 0 := by omega
    simp [h, this]
  · simp [h]

theorem parse_hours (t : Time) (o : Int) (ho : o.natAbs < 16 * 3600) (r : Bytes) :
    parseChunk t .zoneHour (plusMinus o :: (fixedDigits 2 (o.natAbs / 3600) ++ r)) =
      .ok ({ t with offset := signed o (o.natAbs / 3600 * 3600) }, r) := by
  have hz := zoneValue_sign o (o.natAbs / 3600) 0 (by omega) (by omega)
  have e2 : fixedDigits 2 0 = b!"00" := by decide
  rw [e2] at hz
  rw [fixedDigits_two] at hz ⊢
  simp only [List.cons_append, List.nil_append, parseChunk, hz, Res.map]
  rw [show (o.natAbs / 3600 * 60 + 0) * 60 = o.natAbs / 3600 * 3600 by omega]

theorem afterFrac_pm (o : Int) (r : Bytes) : AfterFrac (plusMinus o :: r) := by
  intro c hc
  simp only [List.head?_cons, Option.some.injEq] at hc
  rw [← hc]
  rcases plusMinus_cases o with h | h <;> rw [h] <;> decide

/-- **C73** What is read from a timestamp with time zone of the server: the same, with its microseconds and its
offset, if the year is from 1 to 9999 and the offset is a whole number of hours, otherwise an error. -/
theorem C73_scan_timestamptz (d : Date) (hd : d.Valid) (c : Clock) (hc : c.Valid) (h24 : c.hour < 24) (o : Int)
    (ho : o.natAbs < 16 * 3600) :
    parseTime timestamptzLayout (timestamptzOut d c o) =
      if 1 ≤ d.year ∧ d.year ≤ 9999 ∧ o % 3600 = 0 then .ok (goTime d c o) else .err .time := by
  have e : timestamptzOut d c o = dateBody d ++ (b!" " ++ (clockOut c ++ (plusMinus o ::
      (fixedDigits 2 (o.natAbs / 3600) ++ (zoneTail o.natAbs ++ bcOut d.year))))) := by
    simp [timestamptzOut, zoneOut_eq o ho, List.append_assoc]
  have h := chunks_stamp d hd c hc h24 [.zoneHour] _
    (afterFrac_pm o (fixedDigits 2 (o.natAbs / 3600) ++ (zoneTail o.natAbs ++ bcOut d.year)))
  rw [parseChunks_cons (parse_hours _ o ho _)] at h
  rw [e, show timestamptzLayout = timestampLayout ++ [.zoneHour] from rfl]
  by_cases hy : 1 ≤ d.year ∧ d.year ≤ 9999 ∧ o % 3600 = 0
  · have hs : (shownYear d.year : Int) = d.year := by rw [shownYear, if_pos (by omega)]; omega
    have ht : zoneTail o.natAbs ++ bcOut d.year = [] := by
      rw [(zoneTail_nil _).2 (by omega), bcOut, if_pos (by omega)]; rfl
    have hz : signed o (o.natAbs / 3600 * 3600) = o := by
      rw [show o.natAbs / 3600 * 3600 = o.natAbs by omega, signed_abs]
    rw [if_pos (by omega), hs, ht, hz, parseChunks_nil] at h
    rw [if_pos hy, ht]
    exact parseTime_of h (goTime_day hd c o)
  · rw [if_neg hy]
    refine parseTime_err ?_
    rw [h]
    split
    · rename_i hle
      refine chunks_end _ _ fun hn => hy ?_
      have hn' := List.append_eq_nil_iff.1 hn
      have hb : 0 < d.year := by
        have := hn'.2
        unfold bcOut at this
        split at this
        · assumption
        · simp at this
      have hz := (zoneTail_nil _).1 hn'.1
      rw [shownYear, if_pos hb] at hle
      omega
    · rfl

/-- **C73** What is read from a time with time zone of the server: the same if the offset has minutes but no
seconds; an error if the offset is a whole number of hours, and for 24:00:00. -/
theorem C73_scan_timetz (c : Clock) (hc : c.Valid) (o : Int) (ho : o.natAbs < 16 * 3600) :
    parseTime timetzLayout (timetzOut c o) =
      if c.hour < 24 ∧ o % 3600 ≠ 0 ∧ o % 60 = 0 then .ok (goTime noDate c o) else .err .time := by
  have e : timetzOut c o = clockOut c ++ (plusMinus o :: (fixedDigits 2 (o.natAbs / 3600) ++ zoneTail o.natAbs)) := by
    simp [timetzOut, zoneOut_eq o ho]
  have h := chunks_clock c hc {} rfl [.zoneColon] _
    (afterFrac_pm o (fixedDigits 2 (o.natAbs / 3600) ++ zoneTail o.natAbs))
  rw [e, show timetzLayout = timeLayout ++ [.zoneColon] from rfl]
  by_cases h24 : c.hour < 24
  · rw [if_pos h24] at h
    by_cases hw : o.natAbs % 3600 = 0
    · rw [if_neg (by omega)]
      refine parseTime_err ?_
      rw [h, (zoneTail_nil _).2 hw, List.append_nil, fixedDigits_two, parseChunks]
      rfl
    · have hp : ∀ r, parseChunk { hour := c.hour, minute := c.minute, second := c.second, nano := c.micro * 1000 }
          .zoneColon (plusMinus o :: (fixedDigits 2 (o.natAbs / 3600) ++ (b!":" ++ (fixedDigits 2 (o.natAbs / 60 % 60) ++ r)))) =
          .ok ({ hour := c.hour, minute := c.minute, second := c.second, nano := c.micro * 1000,
                 offset := signed o (o.natAbs / 60 * 60) }, r) := by
        intro r
        have hz := zoneValue_sign o (o.natAbs / 3600) (o.natAbs / 60 % 60) (by omega) (by omega)
        rw [fixedDigits_two, fixedDigits_two] at hz ⊢
        simp only [List.cons_append, List.nil_append, parseChunk, hz, Res.map, if_true]
        rw [show (o.natAbs / 3600 * 60 + o.natAbs / 60 % 60) * 60 = o.natAbs / 60 * 60 by omega]
      have ht : zoneTail o.natAbs = b!":" ++ (fixedDigits 2 (o.natAbs / 60 % 60) ++
          (if o.natAbs % 60 = 0 then [] else b!":" ++ num 2 (o.natAbs % 60))) := by
        rw [zoneTail, if_neg hw, num_eq 2 (o.natAbs / 60 % 60) (by omega) (by omega), List.append_assoc]
      rw [ht, parseChunks_cons (hp _)] at h
      rw [ht]
      by_cases hs : o.natAbs % 60 = 0
      · have hcond : c.hour < 24 ∧ o % 3600 ≠ 0 ∧ o % 60 = 0 := ⟨h24, by omega, by omega⟩
        rw [if_pos hcond]
        simp only [if_pos hs] at h ⊢
        rw [parseChunks_nil, show o.natAbs / 60 * 60 = o.natAbs by omega, signed_abs] at h
        exact parseTime_of h ⟨by show 1 ≤ 1; decide, by show 1 ≤ daysIn 0 1; decide⟩
      · have hcond : ¬ (c.hour < 24 ∧ o % 3600 ≠ 0 ∧ o % 60 = 0) := by omega
        rw [if_neg hcond]
        refine parseTime_err ?_
        rw [h, if_neg hs]
        exact chunks_end _ _ (by simp)
  · rw [if_neg (by omega)]
    rw [if_neg h24] at h
    exact parseTime_err h

/-- **C73** Infinite timestamps are an error. -/
theorem C73_scan_infinity : ∀ f ∈ forms, parseTime f.layout (extOut dateOut .inf) = .err .time ∧
    parseTime f.layout (extOut dateOut .negInf) = .err .time := by decide

end Verif.Pgsql
