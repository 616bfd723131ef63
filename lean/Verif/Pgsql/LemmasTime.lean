import Verif.Pgsql.Time
import Verif.Pgsql.Lemmas5
import Verif.Pgsql.Lemmas6

/- Lemmas about the texts of dates and times. -/
namespace Verif.Pgsql

open Verif

theorem isDig_digit {d : Nat} (h : d < 10) : isDig 10 (Nat.digitChar d) = true :=
  isDig_digitChar 10 d (by omega) h

theorem digit_val {d : Nat} (h : d < 10) : (Nat.digitChar d).toNat - '0'.toNat = d := by
  have : ∀ d < 10, (Nat.digitChar d).toNat - '0'.toNat = d := by decide
  exact this d h

/-! ### Digits -/

theorem length_fixedDigits (w n : Nat) : (fixedDigits w n).length = w := by
  induction w generalizing n with
  | zero => rfl
  | succ w ih => simp [fixedDigits, ih]

theorem fixedDigits_dig (w n : Nat) : ∀ c ∈ fixedDigits w n, isDig 10 c = true := by
  induction w generalizing n with
  | zero => simp [fixedDigits]
  | succ w ih =>
    intro c hc
    rcases List.mem_append.1 hc with h | h
    · exact ih _ c h
    · rw [List.mem_singleton.1 h]; exact isDig_digit (Nat.mod_lt _ (by omega))

theorem ofDigits_fixed (w n : Nat) (h : n < 10 ^ w) : Nat.ofDigitChars 10 (fixedDigits w n) 0 = n := by
  induction w generalizing n with
  | zero => simp at h; simp [fixedDigits, h]
  | succ w ih =>
    have hd : n / 10 < 10 ^ w := by rw [Nat.pow_succ] at h; omega
    rw [fixedDigits, Nat.ofDigitChars_append, ih _ hd,
      Nat.ofDigitChars_cons_digitChar_of_lt_ten (Nat.mod_lt _ (by omega))]
    simp; omega

theorem parseNat_fixed (w n : Nat) (hw : 0 < w) (h : n < 10 ^ w) : parseNat 10 (fixedDigits w n) = some n := by
  have h0 : ¬ (fixedDigits w n).length = 0 := by rw [length_fixedDigits]; omega
  rw [parseNat, if_neg h0, if_pos (List.all_eq_true.2 (fixedDigits_dig w n)), ofDigits_fixed w n h]

theorem fixedDigits_two (n : Nat) : fixedDigits 2 n = [Nat.digitChar (n / 10 % 10), Nat.digitChar (n % 10)] := by
  simp [fixedDigits]

theorem getnum_two (b : Bool) (n : Nat) (h : n < 100) (r : Bytes) :
    getnum b (fixedDigits 2 n ++ r) = some (n, r) := by
  rw [fixedDigits_two]
  simp only [List.cons_append, List.nil_append, getnum,
    isDig_digit (Nat.mod_lt (n / 10) (show 0 < 10 by omega)), isDig_digit (Nat.mod_lt n (show 0 < 10 by omega)),
    digit_val (Nat.mod_lt (n / 10) (show 0 < 10 by omega)), digit_val (Nat.mod_lt n (show 0 < 10 by omega)), if_true]
  congr 2; omega

theorem getnumLt_two (b : Bool) (lim n : Nat) (h : n < 100) (hl : n < lim) (r : Bytes) :
    getnumLt b lim (fixedDigits 2 n ++ r) = .ok (n, r) := by
  simp [getnumLt, getnum_two b n h, hl]

theorem appendInt_nat (n w : Nat) (h : n < 10 ^ w) : appendInt (n : Int) w = fixedDigits w n := by
  simp [appendInt, h]

/-! ### Fractions -/

theorem trimZeros_split (s : Bytes) : ∃ k, s = trimZeros s ++ List.replicate k '0' := by
  refine ⟨(s.reverse.takeWhile (· = '0')).length, ?_⟩
  have h : (s.reverse.takeWhile (· = '0')) =
      List.replicate (s.reverse.takeWhile (· = '0')).length '0' := by
    refine List.eq_replicate_iff.2 ⟨rfl, fun c hc => ?_⟩
    simpa using (List.all_eq_true.1 (List.all_takeWhile (l := s.reverse) (p := (· = '0'))) c hc)
  have h2 := List.takeWhile_append_dropWhile (p := (· = '0')) (l := s.reverse)
  have h3 := congrArg List.reverse h2
  rw [List.reverse_reverse, List.reverse_append] at h3
  rw [trimZeros]
  conv => lhs; rw [← h3, h, List.reverse_replicate]

theorem fracValue_zeros (ds : Bytes) (k : Nat) (h : ds.length + k ≤ 9) :
    fracValue (ds ++ List.replicate k '0') = fracValue ds := by
  have e : 9 - ds.length = k + (9 - (ds.length + k)) := by omega
  rw [fracValue, fracValue, List.take_of_length_le (by simp; omega), List.take_of_length_le (by omega),
    Nat.ofDigitChars_append, Nat.ofDigitChars_replicate_zero]
  simp only [List.length_append, List.length_replicate]
  rw [e, Nat.pow_add, Nat.mul_comm (10 ^ k), Nat.mul_assoc]

theorem fracValue_trim (ds : Bytes) (h : ds.length ≤ 9) : fracValue (trimZeros ds) = fracValue ds := by
  obtain ⟨k, hk⟩ := trimZeros_split ds
  have hl := congrArg List.length hk
  simp only [List.length_append, List.length_replicate] at hl
  conv => rhs; rw [hk]
  rw [fracValue_zeros _ _ (by omega)]

theorem fracValue_fixed (w n : Nat) (hw : w ≤ 9) (h : n < 10 ^ w) :
    fracValue (fixedDigits w n) = n * 10 ^ (9 - w) := by
  rw [fracValue, List.take_of_length_le (by rw [length_fixedDigits]; omega), ofDigits_fixed w n h,
    length_fixedDigits]

theorem trimZeros_mem {s : Bytes} {c : Char} (h : c ∈ trimZeros s) : c ∈ s := by
  obtain ⟨k, hk⟩ := trimZeros_split s
  rw [hk]; exact List.mem_append_left _ h

theorem take_fixed (w k n : Nat) : (fixedDigits (w + k) n).take w = fixedDigits w (n / 10 ^ k) := by
  induction k generalizing n with
  | zero => simp [List.take_of_length_le, length_fixedDigits]
  | succ k ih =>
    have : w + (k + 1) = w + k + 1 := by omega
    rw [this, fixedDigits, List.take_append_of_le_length (by rw [length_fixedDigits]; omega), ih,
      Nat.div_div_eq_div_mul, Nat.pow_succ, Nat.mul_comm]

/-- What may follow the fraction. -/
def AfterFrac (r : Bytes) : Prop := ∀ c, r.head? = some c → isDig 10 c = false ∧ c ≠ '.' ∧ c ≠ ','

theorem parse_frac (t : Time) (ds r : Bytes) (hd : ∀ c ∈ ds, isDig 10 c = true) (hr : AfterFrac r) :
    parseChunk t .frac ((if ds.length = 0 then [] else '.' :: ds) ++ r) =
      .ok (if ds.length = 0 then t else { t with nano := fracValue ds }, r) := by
  have hn := hr
  cases ds with
  | nil =>
    simp only [List.length_nil, if_true, List.nil_append, parseChunk]
    cases r with
    | nil => rfl
    | cons c r =>
      have hc := hn c rfl
      cases r with
      | nil => rfl
      | cons d r => simp [hc.2.1, hc.2.2]
  | cons d ds =>
    have hdd := hd d (by simp)
    have ht : (d :: ds).length ≠ 0 := by simp
    simp only [if_neg ht, List.cons_append, parseChunk, hdd, and_true, true_or, if_true]
    have h1 : (d :: (ds ++ r)).takeWhile (isDig 10) = d :: ds := by
      rw [← List.cons_append, List.takeWhile_append_of_pos hd]
      cases r with
      | nil => simp
      | cons c r => simp [(hn c rfl).1]
    have h2 : (d :: (ds ++ r)).dropWhile (isDig 10) = r := by
      rw [← List.cons_append, List.dropWhile_append_of_pos hd]
      cases r with
      | nil => simp
      | cons c r => simp [(hn c rfl).1]
    rw [h1, h2]

theorem format_frac (n : Nat) : formatFrac n =
    if (trimZeros (fixedDigits 3 (n / 10 ^ 6))).length = 0 then []
    else '.' :: trimZeros (fixedDigits 3 (n / 10 ^ 6)) := by
  rw [formatFrac, show (9 : Nat) = 3 + 6 from rfl, take_fixed]

theorem parse_format_frac (t : Time) (n : Nat) (hn : n < 1000000000) (h0 : t.nano = 0) (r : Bytes) (hr : AfterFrac r) :
    parseChunk t .frac (formatFrac n ++ r) = .ok ({ t with nano := n / 1000000 * 1000000 }, r) := by
  have hlt : n / 10 ^ 6 < 10 ^ 3 := by omega
  have hv : fracValue (trimZeros (fixedDigits 3 (n / 10 ^ 6))) = n / 1000000 * 1000000 := by
    rw [fracValue_trim _ (by rw [length_fixedDigits]; omega), fracValue_fixed 3 _ (by omega) hlt]
  rw [format_frac, parse_frac t _ r (fun c hc => fixedDigits_dig _ _ c (trimZeros_mem hc)) hr]
  split
  · rename_i h
    have he : trimZeros (fixedDigits 3 (n / 10 ^ 6)) = [] := List.length_eq_zero_iff.1 h
    have : n / 1000000 * 1000000 = 0 := by rw [← hv, he]; rfl
    rw [this, ← h0]
  · rw [hv]

/-! ### Offsets -/

theorem zoneSign_cases (o : Int) : zoneSign o = '+' ∨ zoneSign o = '-' := by
  unfold zoneSign; split <;> simp

theorem zoneMinutes_abs (o : Int) : (zoneMinutes o).natAbs = o.natAbs / 60 := by
  rw [zoneMinutes, Int.natAbs_tdiv]; rfl

theorem tdiv_sign (o : Int) (k : Nat) (hk : 0 < k) :
    o.tdiv k = if o < 0 then -((o.natAbs / k : Nat) : Int) else ((o.natAbs / k : Nat) : Int) := by
  by_cases h : o < 0
  · obtain ⟨n, rfl⟩ : ∃ n : Nat, o = -(n : Int) := ⟨o.natAbs, by omega⟩
    rw [if_pos h, Int.neg_tdiv, Int.natAbs_neg, Int.natAbs_natCast]; rfl
  · obtain ⟨n, rfl⟩ : ∃ n : Nat, o = (n : Int) := ⟨o.natAbs, by omega⟩
    rw [if_neg h, Int.natAbs_natCast]; rfl

theorem zoneSign_eq (o : Int) : zoneSign o = if o < 0 ∧ o.natAbs / 60 ≠ 0 then '-' else '+' := by
  rw [zoneSign, zoneMinutes, show (60 : Int) = ((60 : Nat) : Int) from rfl, tdiv_sign o 60 (by omega)]
  by_cases h : o < 0
  · by_cases h2 : o.natAbs / 60 = 0
    · simp [h, h2]
    · rw [if_pos h, if_pos (by omega), if_pos ⟨h, h2⟩]
  · simp [h]; omega

theorem zoneValue_back (o : Int) (h m k : Nat) (hh : h ≤ 24) (hm : m < 60) (hk : k = (h * 60 + m) * 60)
    (hz : o.natAbs / 60 = 0 → k = 0) :
    zoneValue (zoneSign o) (fixedDigits 2 h) (fixedDigits 2 m) = .ok (if o < 0 then -(k : Int) else (k : Int)) := by
  have g1 := getnum_two true h (by omega) []
  have g2 := getnum_two true m (by omega) []
  rw [List.append_nil] at g1 g2
  simp only [zoneValue, g1, g2]
  rw [if_neg (by omega), zoneSign_eq]
  by_cases ho : o < 0
  · by_cases h2 : o.natAbs / 60 = 0
    · have := hz h2
      simp [ho, h2]; omega
    · simp [ho, h2]; omega
  · simp [ho]; omega

theorem parse_zoneHour (t : Time) (o : Int) (ho : o.natAbs < 25 * 3600) (r : Bytes) :
    parseChunk t .zoneHour (zoneSign o :: appendInt ((zoneMinutes o).natAbs / 60 : Nat) 2 ++ r) =
      .ok ({ t with offset := o.tdiv 3600 * 3600 }, r) := by
  rw [zoneMinutes_abs, appendInt_nat _ 2 (by omega)]
  have hz := zoneValue_back o (o.natAbs / 60 / 60) 0 (o.natAbs / 60 / 60 * 3600) (by omega) (by omega) (by omega)
    (by omega)
  have e2 : fixedDigits 2 0 = b!"00" := by decide
  rw [e2] at hz
  rw [fixedDigits_two] at hz ⊢
  simp only [List.cons_append, List.nil_append, parseChunk, hz, Res.map]
  rw [show (3600 : Int) = ((3600 : Nat) : Int) from rfl, tdiv_sign o 3600 (by omega)]
  congr 3
  split <;> omega

theorem parse_zoneColon (t : Time) (o : Int) (ho : o.natAbs < 25 * 3600) (r : Bytes) :
    parseChunk t .zoneColon (zoneSign o :: appendInt ((zoneMinutes o).natAbs / 60 : Nat) 2 ++ [':'] ++
      appendInt ((zoneMinutes o).natAbs % 60 : Nat) 2 ++ r) =
      .ok ({ t with offset := o.tdiv 60 * 60 }, r) := by
  rw [zoneMinutes_abs, appendInt_nat _ 2 (by omega), appendInt_nat _ 2 (by omega)]
  have hz := zoneValue_back o (o.natAbs / 60 / 60) (o.natAbs / 60 % 60) (o.natAbs / 60 * 60) (by omega)
    (by omega) (by omega) (by omega)
  rw [fixedDigits_two, fixedDigits_two] at hz ⊢
  simp only [List.cons_append, List.nil_append, parseChunk, hz, Res.map, if_true]
  rw [show (60 : Int) = ((60 : Nat) : Int) from rfl, tdiv_sign o 60 (by omega)]
  congr 3
  split <;> omega

/-! ### The other chunks -/

theorem parse_year (t : Time) (y : Int) (h0 : 0 ≤ y) (h1 : y ≤ 9999) (r : Bytes) :
    parseChunk t .year (appendInt y 4 ++ r) = .ok ({ t with year := y }, r) := by
  obtain ⟨n, rfl⟩ : ∃ n : Nat, y = (n : Int) := ⟨y.toNat, by omega⟩
  rw [appendInt_nat n 4 (by omega)]
  have hl := length_fixedDigits 4 n
  simp only [parseChunk]
  rw [List.take_left' hl, List.drop_left' hl, parseNat_fixed 4 n (by omega) (by omega)]
  simp only [List.length_append, hl]
  rw [if_neg (by omega)]

theorem parse_month (t : Time) (n : Nat) (h : 1 ≤ n ∧ n ≤ 12) (r : Bytes) :
    parseChunk t .month (appendInt (n : Int) 2 ++ r) = .ok ({ t with month := n }, r) := by
  rw [appendInt_nat n 2 (by omega)]
  simp only [parseChunk, getnumLt_two true 13 n (by omega) (by omega), Res.bind]
  rw [if_neg (by omega)]

theorem parse_day (t : Time) (n : Nat) (h : n < 100) (r : Bytes) :
    parseChunk t .day (appendInt (n : Int) 2 ++ r) = .ok ({ t with day := n }, r) := by
  rw [appendInt_nat n 2 (by omega)]
  simp only [parseChunk, getnumLt_two true 100 n (by omega) (by omega), Res.map]

theorem parse_hour (t : Time) (n : Nat) (h : n < 24) (r : Bytes) :
    parseChunk t .hour (appendInt (n : Int) 2 ++ r) = .ok ({ t with hour := n }, r) := by
  rw [appendInt_nat n 2 (by omega)]
  simp only [parseChunk, getnumLt_two false 24 n (by omega) (by omega), Res.map]

theorem parse_minute (t : Time) (n : Nat) (h : n < 60) (r : Bytes) :
    parseChunk t .minute (appendInt (n : Int) 2 ++ r) = .ok ({ t with minute := n }, r) := by
  rw [appendInt_nat n 2 (by omega)]
  simp only [parseChunk, getnumLt_two true 60 n (by omega) (by omega), Res.map]

theorem parse_second (t : Time) (n : Nat) (h : n < 60) (r : Bytes) :
    parseChunk t .second (appendInt (n : Int) 2 ++ r) = .ok ({ t with second := n }, r) := by
  rw [appendInt_nat n 2 (by omega)]
  simp only [parseChunk, getnumLt_two true 60 n (by omega) (by omega), Res.map]

theorem parse_lit (t : Time) (c : Char) (h : c ≠ ' ') (r : Bytes) :
    parseChunk t (.lit c) (c :: r) = .ok (t, r) := by simp [parseChunk, h]

theorem parse_space (t : Time) (r : Bytes) (h : r.head? ≠ some ' ') :
    parseChunk t (.lit ' ') (' ' :: r) = .ok (t, r) := by
  simp only [parseChunk, if_true]
  cases r with
  | nil => rfl
  | cons c r =>
    have : c ≠ ' ' := fun e => h (by rw [e]; rfl)
    simp [this]

theorem parseChunks_cons {t t' : Time} {c : Chunk} {l : Layout} {s r : Bytes}
    (h : parseChunk t c s = .ok (t', r)) : parseChunks t (c :: l) s = parseChunks t' l r := by
  rw [parseChunks, h]; rfl

theorem format_cons (t : Time) (c : Chunk) (l : Layout) : t.format (c :: l) = formatChunk t c ++ t.format l := rfl

theorem format_nil (t : Time) : t.format [] = [] := rfl

end Verif.Pgsql
