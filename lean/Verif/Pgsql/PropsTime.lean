import Verif.Pgsql.LemmasTime

/- C73: what the texts of dates and times keep. -/
namespace Verif.Pgsql

open Verif

/-- What a layout writes: the date, the time of day, the offset in units of so many seconds. -/
structure Form where
  layout : Layout
  date : Bool
  clock : Bool
  unit : Option Nat
deriving Repr, DecidableEq

def dateForm : Form := ⟨dateLayout, true, false, none⟩
def timeForm : Form := ⟨timeLayout, false, true, none⟩
def timetzForm : Form := ⟨timetzLayout, false, true, some 60⟩
def timestampForm : Form := ⟨timestampLayout, true, true, none⟩
def timestamptzForm : Form := ⟨timestamptzLayout, true, true, some 3600⟩

def forms : List Form := [dateForm, timeForm, timetzForm, timestampForm, timestamptzForm]

/-- A time as far as a form keeps it: milliseconds, and whole units of the offset; what is left out is that of
the date 0000-01-01, midnight, offset 0. -/
def Form.kept (f : Form) (t : Time) : Time where
  year := if f.date then t.year else 0
  month := if f.date then t.month else 1
  day := if f.date then t.day else 1
  hour := if f.clock then t.hour else 0
  minute := if f.clock then t.minute else 0
  second := if f.clock then t.second else 0
  nano := if f.clock then t.nano / 1000000 * 1000000 else 0
  offset := match f.unit with
    | some u => t.offset.tdiv u * u
    | none => 0

theorem daysIn_le (y : Int) (m : Nat) : daysIn y m ≤ 31 := by
  unfold daysIn; split <;> (try split) <;> omega

theorem head_appendInt (n : Nat) (h : n < 100) (r : Bytes) : (appendInt (n : Int) 2 ++ r).head? ≠ some ' ' := by
  rw [appendInt_nat n 2 (by omega), fixedDigits_two]
  have := isDig_digit (Nat.mod_lt (n / 10) (show 0 < 10 by omega))
  intro e
  simp only [List.cons_append, List.head?_cons, Option.some.injEq] at e
  rw [e] at this
  exact absurd this (by decide)

theorem afterFrac_zone (o : Int) (r : Bytes) : AfterFrac (zoneSign o :: r) := by
  intro c hc
  simp only [List.head?_cons, Option.some.injEq] at hc
  rw [← hc]
  rcases zoneSign_cases o with h | h <;> rw [h] <;> decide

theorem afterFrac_nil : AfterFrac [] := by intro c hc; simp at hc

theorem chunks_date (t acc : Time) (hm : 1 ≤ t.month ∧ t.month ≤ 12) (hd : t.day ≤ 31) (h0 : 0 ≤ t.year)
    (h1 : t.year ≤ 9999) (l : Layout) (s : Bytes) :
    parseChunks acc (dateLayout ++ l) (t.format dateLayout ++ s) =
      parseChunks { acc with year := t.year, month := t.month, day := t.day } l s := by
  simp only [dateLayout, List.cons_append, List.nil_append, format_cons, format_nil, formatChunk,
    List.append_assoc]
  rw [parseChunks_cons (parse_year acc t.year h0 h1 _), parseChunks_cons (parse_lit _ '-' (by decide) _),
    parseChunks_cons (parse_month _ t.month hm _), parseChunks_cons (parse_lit _ '-' (by decide) _),
    parseChunks_cons (parse_day _ t.day (by omega) _)]

theorem Time.Valid.day_le {t : Time} (hv : t.Valid) : t.day ≤ 31 :=
  Nat.le_trans hv.day.2 (daysIn_le _ _)

theorem chunks_time (t acc : Time) (hv : t.Valid) (ha : acc.nano = 0) (l : Layout) (s : Bytes) (hl : AfterFrac s) :
    parseChunks acc (timeLayout ++ l) (t.format timeLayout ++ s) =
      parseChunks
        { acc with hour := t.hour, minute := t.minute, second := t.second, nano := t.nano / 1000000 * 1000000 }
        l s := by
  simp only [timeLayout, List.cons_append, List.nil_append, format_cons, format_nil, formatChunk,
    List.append_assoc]
  rw [parseChunks_cons (parse_hour acc t.hour hv.hour _), parseChunks_cons (parse_lit _ ':' (by decide) _),
    parseChunks_cons (parse_minute _ t.minute hv.minute _), parseChunks_cons (parse_lit _ ':' (by decide) _),
    parseChunks_cons (parse_second _ t.second hv.second _),
    parseChunks_cons (parse_format_frac _ t.nano hv.nano (by simpa using ha) _ hl)]

theorem format_append (t : Time) (l l' : Layout) : t.format (l ++ l') = t.format l ++ t.format l' := by
  simp [Time.format]

theorem head_time (t : Time) (hv : t.Valid) (r : Bytes) : (t.format timeLayout ++ r).head? ≠ some ' ' := by
  rw [timeLayout, format_cons, formatChunk, List.append_assoc]
  exact head_appendInt _ (by have := hv.hour; omega) _

theorem chunks_space (t acc : Time) (hv : t.Valid) (l : Layout) :
    parseChunks acc (.lit ' ' :: (timeLayout ++ l)) (t.format (.lit ' ' :: (timeLayout ++ l))) =
      parseChunks acc (timeLayout ++ l) (t.format (timeLayout ++ l)) := by
  rw [format_cons, formatChunk, List.singleton_append, format_append]
  exact parseChunks_cons (parse_space _ _ (head_time t hv _))

theorem parseTime_of {l : Layout} {s : Bytes} {t : Time} (h : parseChunks {} l s = .ok t)
    (hd : 1 ≤ t.day ∧ t.day ≤ daysIn t.year t.month) : parseTime l s = .ok t := by
  rw [parseTime, h]
  simp only [Res.bind]
  rw [if_neg (by omega)]

theorem parseChunks_nil (t : Time) : parseChunks t [] [] = .ok t := rfl

/-- **C73** Reading a text that was written gives the time back, as far as the form keeps it: for years of four
digits. -/
theorem C73_round_trip_partial (f : Form) (hf : f ∈ forms) (t : Time) (hv : t.Valid)
    (hy : f.date = true → 0 ≤ t.year ∧ t.year ≤ 9999) (ho : t.offset.natAbs < 25 * 3600) :
    parseTime f.layout (t.format f.layout) = .ok (f.kept t) := by
  simp only [forms, List.mem_cons, List.not_mem_nil, or_false] at hf
  rcases hf with h | h | h | h | h <;> subst h
  · obtain ⟨y0, y1⟩ := hy rfl
    have := chunks_date t {} hv.month hv.day_le y0 y1 [] []
    simp only [List.append_nil, format_nil, parseChunks_nil] at this
    exact parseTime_of this hv.day
  · have := chunks_time t {} hv rfl [] [] afterFrac_nil
    simp only [List.append_nil, format_nil, parseChunks_nil] at this
    exact parseTime_of this ⟨by show 1 ≤ 1; decide, by show 1 ≤ daysIn 0 1; decide⟩
  · have e : timetzLayout = timeLayout ++ [.zoneColon] := rfl
    have z := parse_zoneColon { hour := t.hour, minute := t.minute, second := t.second, nano := t.nano / 1000000 * 1000000 }
      t.offset ho []
    have := chunks_time t {} hv rfl [.zoneColon] (t.format [.zoneColon]) (by
      rw [format_cons, formatChunk]; simp only [List.cons_append]; exact afterFrac_zone _ _)
    rw [← format_append, ← e, format_cons, format_nil, formatChunk, parseChunks_cons z, parseChunks_nil] at this
    exact parseTime_of this ⟨by show 1 ≤ 1; decide, by show 1 ≤ daysIn 0 1; decide⟩
  · obtain ⟨y0, y1⟩ := hy rfl
    have e : timestampLayout = dateLayout ++ (.lit ' ' :: (timeLayout ++ [])) := rfl
    have := chunks_time t { year := t.year, month := t.month, day := t.day } hv rfl [] [] afterFrac_nil
    rw [parseChunks_nil] at this
    refine parseTime_of (t := timestampForm.kept t) ?_ hv.day
    rw [show timestampForm.layout = timestampLayout from rfl, e, format_append, chunks_date t {} hv.month hv.day_le y0 y1,
      chunks_space t _ hv, format_append]
    exact this
  · obtain ⟨y0, y1⟩ := hy rfl
    have e : timestamptzLayout = dateLayout ++ (.lit ' ' :: (timeLayout ++ [.zoneHour])) := rfl
    have z := parse_zoneHour { year := t.year, month := t.month, day := t.day, hour := t.hour, minute := t.minute, second := t.second, nano := t.nano / 1000000 * 1000000 }
      t.offset ho []
    have := chunks_time t { year := t.year, month := t.month, day := t.day } hv rfl [.zoneHour] (t.format [.zoneHour]) (by
      rw [format_cons, formatChunk]; simp only [List.cons_append]; exact afterFrac_zone _ _)
    refine parseTime_of (t := timestamptzForm.kept t) ?_ hv.day
    rw [show timestamptzForm.layout = timestamptzLayout from rfl, e, format_append, chunks_date t {} hv.month hv.day_le y0 y1,
      chunks_space t _ hv, format_append, this, format_cons, format_nil, formatChunk, parseChunks_cons z]
    rfl

/-- The fields a form is for are kept. -/
def Form.exact (f : Form) (t : Time) : Prop :=
  (f.date = true → 0 ≤ t.year ∧ t.year ≤ 9999) ∧
  (f.date = false → t.year = 0 ∧ t.month = 1 ∧ t.day = 1) ∧
  (if f.clock then t.nano % 1000000 = 0 else t.hour = 0 ∧ t.minute = 0 ∧ t.second = 0 ∧ t.nano = 0) ∧
  (match f.unit with
    | some u => t.offset % u = 0
    | none => t.offset = 0)

/-- **C73** Times that the form can represent come back as they are. -/
theorem C73_exact_partial (f : Form) (hf : f ∈ forms) (t : Time) (hv : t.Valid) (he : f.exact t)
    (ho : t.offset.natAbs < 25 * 3600) : parseTime f.layout (t.format f.layout) = .ok t := by
  rw [C73_round_trip_partial f hf t hv he.1 ho]
  congr 1
  obtain ⟨h1, h2, h3, h4⟩ := he
  have hn : t.nano % 1000000 = 0 → t.nano / 1000000 * 1000000 = t.nano := by omega
  cases t with
  | mk y m d hh mm ss n o =>
  have key : ∀ u : Nat, 0 < u → o % (u : Int) = 0 → o.tdiv u * u = o := by
    intro u hu hz
    have hm := Int.tdiv_mul_cancel (a := o) (b := u) (Int.dvd_of_emod_eq_zero hz)
    exact hm
  have k60 := key 60 (by omega)
  have k3600 := key 3600 (by omega)
  simp only [forms, List.mem_cons, List.not_mem_nil, or_false] at hf
  rcases hf with h | h | h | h | h <;> subst h <;>
    simp_all [Form.kept, dateForm, timeForm, timetzForm, timestampForm, timestamptzForm]

end Verif.Pgsql
