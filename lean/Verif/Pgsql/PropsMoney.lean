import Verif.Pgsql.Money
import Verif.Pgsql.SpecMoney
import Verif.Pgsql.PropsInts
/-
C76: money.
-/
namespace Verif.Pgsql

open Verif Verif.PgServer

/-! ### Lemmas: rounding -/

theorem roundEven_bounds (n d : Nat) (hd : 0 < d) :
    2 * (roundEven n d * d) ≤ 2 * n + d ∧ 2 * n ≤ 2 * (roundEven n d * d) + d := by
  have h1 := Nat.div_add_mod n d
  have h2 := Nat.mod_lt n hd
  have h3 : n / d * d = d * (n / d) := Nat.mul_comm _ _
  have h4 : (n / d + 1) * d = d * (n / d) + d := by rw [Nat.add_mul, h3]; omega
  rw [roundEven]
  split
  · rw [h3]; omega
  · split
    · rw [h4]; omega
    · split
      · rw [h3]; omega
      · rw [h4]; omega

theorem roundEven_near (n d v : Nat) (h1 : 2 * n < 2 * (v * d) + d) (h2 : 2 * (v * d) < 2 * n + d) :
    roundEven n d = v := by
  have hd : 0 < d := by omega
  obtain ⟨b1, b2⟩ := roundEven_bounds n d hd
  have l1 : ¬ roundEven n d < v := by
    intro h
    have := Nat.mul_le_mul_right d (show roundEven n d + 1 ≤ v from h)
    rw [Nat.add_mul] at this
    omega
  have l2 : ¬ v < roundEven n d := by
    intro h
    have := Nat.mul_le_mul_right d (show v + 1 ≤ roundEven n d from h)
    rw [Nat.add_mul] at this
    omega
  omega

theorem roundEven_scale (n d k : Nat) (hk : 0 < k) : roundEven (n * k) (d * k) = roundEven n d := by
  rw [roundEven, roundEven, Nat.mul_div_mul_right _ _ hk, Nat.mul_mod_mul_right,
    ← Nat.mul_assoc]
  simp only [gt_iff_lt, Nat.mul_lt_mul_right hk]

theorem unit_pos : 0 < unit := by rw [unit]; exact Nat.two_pow_pos _

theorem unit_split (k : Nat) (h : k ≤ 1074) : ∃ J, unit = 2 ^ k * 2 ^ J := by
  refine ⟨1074 - k, ?_⟩
  rw [← Nat.pow_add, unit, Nat.add_sub_cancel' h]

theorem unit_pow : ∃ J, unit = 2 ^ J := ⟨1074, by rw [unit]⟩

theorem lastBit_le (n d J : Nat) (h : n * unit / d < 2 ^ (53 + J)) : lastBit n d ≤ J := by
  rw [lastBit]
  by_cases h0 : n * unit / d = 0
  · rw [h0]; simp
  · have := (Nat.log2_lt h0).mpr h
    omega

theorem toFloat_bounds (n d J : Nat) (hd : 0 < d) (h : n * unit / d < 2 ^ (53 + J)) :
    2 * (toFloat n d * d) ≤ 2 * (n * unit) + d * 2 ^ J ∧
    2 * (n * unit) ≤ 2 * (toFloat n d * d) + d * 2 ^ J := by
  have hj := lastBit_le n d J h
  have hp := Nat.pow_le_pow_right (show 0 < 2 by omega) hj
  have hq := Nat.mul_le_mul_left d hp
  obtain ⟨b1, b2⟩ := roundEven_bounds (n * unit) (d * 2 ^ lastBit n d)
    (Nat.mul_pos hd (Nat.two_pow_pos _))
  have e : roundEven (n * unit) (d * 2 ^ lastBit n d) * (d * 2 ^ lastBit n d) = toFloat n d * d := by
    rw [toFloat, Nat.mul_comm d, Nat.mul_assoc]
  rw [e] at b1 b2
  omega

theorem toFloat_exact (n d w J : Nat) (hd : 0 < d) (e : n * unit = w * d) (hw : w < 2 ^ (53 + J))
    (hJ : 2 ^ J ∣ w) : toFloat n d = w := by
  have hq : n * unit / d = w := by rw [e, Nat.mul_div_cancel _ hd]
  have hj := lastBit_le n d J (by rw [hq]; exact hw)
  obtain ⟨r, hr⟩ := Nat.dvd_trans (Nat.pow_dvd_pow 2 hj) hJ
  rw [toFloat, e]
  have : w * d = r * (d * 2 ^ lastBit n d) := by
    conv => lhs; rw [hr]
    rw [Nat.mul_comm (2 ^ lastBit n d) r, Nat.mul_assoc, Nat.mul_comm d]
  have hp : 0 < d * 2 ^ lastBit n d := Nat.mul_pos hd (Nat.two_pow_pos _)
  rw [this, roundEven_near _ _ r (by omega) (by omega), Nat.mul_comm]
  exact hr.symm

theorem toFloat_scale (n d k : Nat) (hk : 0 < k) : toFloat (n * k) (d * k) = toFloat n d := by
  have e : n * k * unit = n * unit * k := by
    rw [Nat.mul_assoc, Nat.mul_assoc, Nat.mul_comm k]
  have hb : lastBit (n * k) (d * k) = lastBit n d := by
    rw [lastBit, lastBit, e, Nat.mul_div_mul_right _ _ hk]
  have ed : d * k * 2 ^ lastBit n d = d * 2 ^ lastBit n d * k := by
    rw [Nat.mul_assoc, Nat.mul_assoc, Nat.mul_comm k]
  rw [toFloat, hb, e, ed, roundEven_scale _ _ _ hk, toFloat]

theorem toFloat_nat (v : Nat) (h : v < 2 ^ 53) : toFloat v 1 = v * unit := by
  obtain ⟨J, hJ⟩ := unit_pow
  refine toFloat_exact v 1 (v * unit) J (by omega) (by omega) ?_ ⟨v, by rw [hJ, Nat.mul_comm]⟩
  rw [Nat.pow_add, ← hJ]
  exact Nat.mul_lt_mul_of_pos_right h unit_pos

/-- The float64 of an amount that is given in cents. -/
theorem dollars (v : Nat) (h : v < 2 ^ 53) : toFloat (toFloat v 1) (100 * unit) = toFloat v 100 := by
  rw [toFloat_nat v h, toFloat_scale _ _ _ unit_pos]

/-- The bound below which the cents of an amount are told apart by a float64. -/
def moneyBound : Nat := 100 * 2 ^ 46

theorem dollars_near (v : Nat) (h : v < moneyBound) : ∃ u, unit = 128 * u ∧ 0 < u ∧
    2 * (toFloat v 100 * 100) ≤ 2 * (v * unit) + 100 * u ∧
    2 * (v * unit) ≤ 2 * (toFloat v 100 * 100) + 100 * u := by
  obtain ⟨J, hJ⟩ := unit_split 7 (by omega)
  refine ⟨2 ^ J, hJ, Nat.two_pow_pos _, toFloat_bounds v 100 J (by omega) ?_⟩
  have e : 2 ^ (53 + J) = 2 ^ 46 * unit := by
    rw [hJ, ← Nat.mul_assoc, ← Nat.pow_add, ← Nat.pow_add]
  rw [e, Nat.div_lt_iff_lt_mul (by omega), Nat.mul_right_comm]
  exact Nat.mul_lt_mul_of_pos_right (by rw [moneyBound] at h; omega) unit_pos

theorem cents_exact (v : Nat) (h : v < moneyBound) :
    roundEven (toFloat (toFloat v 1) (100 * unit) * 100) unit = v := by
  obtain ⟨u, hu, h0, b1, b2⟩ := dollars_near v h
  rw [dollars v (by rw [moneyBound] at h; omega)]
  exact roundEven_near _ _ _ (by omega) (by omega)

/-- What comes out of the multiplication by 100. -/
theorem product_near (v : Nat) (h : v < moneyBound) :
    toFloat (toFloat v 100 * 100) unit / unit = v ∨
    toFloat (toFloat v 100 * 100) unit / unit + 1 = v := by
  obtain ⟨u, hu, h0, b1, b2⟩ := dollars_near v h
  have hv : (v + 1) * unit ≤ 2 ^ 53 * unit :=
    Nat.mul_le_mul_right _ (by rw [moneyBound] at h; omega)
  have hv1 : (v + 1) * unit = v * unit + unit := by rw [Nat.add_mul, Nat.one_mul]
  have hp := unit_pos
  obtain ⟨J, hJ⟩ := unit_pow
  have hx : toFloat v 100 * 100 * unit / unit < 2 ^ (53 + J) := by
    rw [Nat.mul_div_cancel _ hp, Nat.pow_add, ← hJ]
    exact Nat.lt_of_lt_of_le (show _ < (v + 1) * unit by omega) hv
  obtain ⟨c1, c2⟩ := toFloat_bounds (toFloat v 100 * 100) unit J hp hx
  generalize toFloat (toFloat v 100 * 100) unit = y at *
  generalize toFloat v 100 * 100 = x at *
  rw [← hJ] at c1 c2
  have d1 : 2 * y ≤ 2 * x + unit := by
    refine Nat.le_of_mul_le_mul_right (?_ : 2 * y * unit ≤ (2 * x + unit) * unit) hp
    rw [Nat.add_mul, Nat.mul_assoc, Nat.mul_assoc]; exact c1
  have d2 : 2 * x ≤ 2 * y + unit := by
    refine Nat.le_of_mul_le_mul_right (?_ : 2 * x * unit ≤ (2 * y + unit) * unit) hp
    rw [Nat.add_mul, Nat.mul_assoc, Nat.mul_assoc]; exact c2
  have l1 : y / unit < v + 1 := by
    rw [Nat.div_lt_iff_lt_mul hp, hv1]; omega
  have l2 : v ≤ y / unit + 1 := by
    have := Nat.lt_div_mul_add hp (a := y)
    refine Nat.le_of_lt_succ ?_
    refine Nat.lt_of_mul_lt_mul_right (a := unit) (?_ : v * unit < _)
    rw [Nat.succ_mul, Nat.add_mul]
    omega
  omega

theorem product_quarters (w : Nat) (h : 25 * w < moneyBound) :
    toFloat (toFloat (25 * w) 100 * 100) unit / unit = 25 * w := by
  rw [moneyBound] at h
  obtain ⟨J, hu⟩ : ∃ J, unit = 4 * 2 ^ J := unit_split 2 (by omega)
  obtain ⟨K, hK⟩ := unit_pow
  have h1 : toFloat (25 * w) 100 = w * 2 ^ J := by
    refine toFloat_exact _ _ _ J (by omega) ?_ ?_ ⟨w, Nat.mul_comm _ _⟩
    · rw [hu]
      generalize 2 ^ J = t
      rw [Nat.mul_assoc, Nat.mul_left_comm w 4 t, ← Nat.mul_assoc 25 4, Nat.mul_comm (w * t)]
    · rw [Nat.pow_add]
      exact Nat.mul_lt_mul_of_pos_right (by omega) (Nat.two_pow_pos _)
  have h2 : w * 2 ^ J * 100 = 25 * w * unit := by
    rw [hu]
    generalize 2 ^ J = t
    rw [Nat.mul_assoc 25, Nat.mul_left_comm w 4 t, ← Nat.mul_assoc 25 4, Nat.mul_comm (w * t)]
  rw [h1, h2, toFloat_exact (25 * w * unit) unit (25 * w * unit) K unit_pos rfl ?_
      ⟨25 * w, by rw [hK, Nat.mul_comm]⟩,
    Nat.mul_div_cancel _ unit_pos]
  rw [Nat.pow_add, ← hK]
  exact Nat.mul_lt_mul_of_pos_right (by omega) unit_pos

/-! ### Lemmas: texts -/

theorem moneyText_eq (v : Int) (h : v.natAbs < moneyBound) :
    moneyText v = '$' :: ((if v < 0 then ['-'] else []) ++ Nat.toDigits 10 (v.natAbs / 100) ++
      '.' :: cents2 (v.natAbs % 100)) := by
  rw [moneyText, fmtCents, cents_exact _ h]
  simp

theorem readDigits_digits (seen : Bool) (n k : Nat) (ds r : Bytes) (h : ∀ c ∈ ds, isDig 10 c = true) :
    readDigits seen n k (ds ++ r) =
      readDigits seen (Nat.ofDigitChars 10 ds n) (if seen then k + ds.length else k) r := by
  induction ds generalizing n k with
  | nil => cases seen <;> rfl
  | cons c ds ih =>
    have hc := h c (by simp)
    have hp : c ≠ '.' := by rintro rfl; revert hc; decide
    rw [List.cons_append, readDigits, if_neg hp, if_pos hc, ih _ _ (fun d hd => h d (by simp [hd])),
      Nat.ofDigitChars_cons, Nat.mul_comm n 10]
    cases seen <;> simp
    congr 1; omega

theorem cents2_dig (n : Nat) (h : n < 100) : ∀ c ∈ cents2 n, isDig 10 c = true := by
  have : ∀ n < 100, ∀ c ∈ cents2 n, isDig 10 c = true := by decide +kernel
  exact this n h

theorem cents2_val (n : Nat) (h : n < 100) (a : Nat) : Nat.ofDigitChars 10 (cents2 n) a = a * 100 + n := by
  rw [cents2, Nat.ofDigitChars_cons_digitChar_of_lt_ten (by omega),
    Nat.ofDigitChars_cons_digitChar_of_lt_ten (by omega), Nat.ofDigitChars_nil]
  omega

theorem readDigits_amount (n : Nat) :
    readDigits false 0 0 (Nat.toDigits 10 (n / 100) ++ '.' :: cents2 (n % 100)) = some (n, 2) := by
  rw [readDigits_digits _ _ _ _ _ (isDig_toDigits 10 _ (by omega) (by omega)),
    Nat.ofDigitChars_toDigits (by omega) (by omega), readDigits, if_pos rfl]
  have := readDigits_digits true (n / 100) 0 (cents2 (n % 100)) [] (cents2_dig _ (Nat.mod_lt _ (by omega)))
  rw [List.append_nil, cents2_val _ (Nat.mod_lt _ (by omega))] at this
  simp only [Bool.false_eq_true, if_false]
  rw [this, readDigits]
  simp only [if_true, Option.some.injEq, Prod.mk.injEq]
  exact ⟨by omega, rfl⟩

theorem parseFloat_amount (neg : Bool) (n : Nat) :
    parseFloat ((if neg then ['-'] else []) ++ (Nat.toDigits 10 (n / 100) ++ '.' :: cents2 (n % 100))) =
      .ok (neg, toFloat n 100) := by
  have hne : Nat.toDigits 10 (n / 100) ≠ [] := Nat.toDigits_ne_nil
  have hdig := isDig_toDigits 10 (n / 100) (by omega) (by omega)
  have hr := readDigits_amount n
  obtain ⟨c, ds, e⟩ := List.exists_cons_of_ne_nil hne
  have hc : isDig 10 c = true := hdig c (by rw [e]; simp)
  have h1 : c ≠ '-' := by rintro rfl; revert hc; decide
  have h2 : c ≠ '+' := by rintro rfl; revert hc; decide
  rw [e] at hr ⊢
  cases neg
  · rw [parseFloat]
    simp only [Bool.false_eq_true, if_false, List.nil_append, List.cons_append, List.head?_cons,
      Option.some.injEq, h1, h2, or_self, List.any_cons, hc, Bool.true_or, if_true]
    rw [List.cons_append] at hr
    rw [hr]
    rfl
  · rw [parseFloat]
    simp only [if_true, List.cons_append, List.nil_append, List.head?_cons, true_or, List.tail_cons,
      List.any_cons, hc, Bool.true_or]
    rw [List.cons_append] at hr
    rw [hr]
    rfl

theorem moneyElem_amount (neg : Bool) (n : Nat) (c : Char) :
    moneyElem (c :: ((if neg then ['-'] else []) ++ (Nat.toDigits 10 (n / 100) ++ '.' :: cents2 (n % 100)))) =
      .ok (toCents (neg, toFloat n 100)) := by
  rw [moneyElem, parseFloat_amount]; rfl

theorem moneyElem_text (v : Int) (h : v.natAbs < moneyBound) :
    moneyElem (moneyText v) = .ok (toCents (decide (v < 0), toFloat v.natAbs 100)) := by
  rw [moneyText_eq v h]
  have := moneyElem_amount (decide (v < 0)) v.natAbs '$'
  simpa using this

/-! ### money -/

/-- **C76** The text written for an amount below 100 * 2^46 cents: the sign after the currency
symbol, the dollars, and the cents. -/
theorem C76_text_partial (v : Int) (h : v.natAbs < 100 * 2 ^ 46) :
    moneyValue v = '$' :: ((if v < 0 then ['-'] else []) ++ Nat.toDigits 10 (v.natAbs / 100) ++
      ['.', Nat.digitChar (v.natAbs % 100 / 10), Nat.digitChar (v.natAbs % 10)]) := by
  rw [moneyValue, moneyText_eq v h, cents2, Nat.mod_mod_of_dvd _ (by decide)]

theorem cashDigits_digits (n : Nat) (ds : Bytes) (a b : Char) (h : ∀ c ∈ ds, isDig 10 c = true)
    (ha : a.isDigit = true) (hb : b.isDigit = true) :
    cashDigits n (ds ++ ['.', a, b]) =
      some (Nat.ofDigitChars 10 ds n * 100 + (a.toNat - 48) * 10 + (b.toNat - 48)) := by
  induction ds generalizing n with
  | nil => simp [cashDigits, ha, hb]
  | cons c ds ih =>
    have hc := h c (by simp)
    have hcd : c.isDigit = true := by
      simp only [isDig, Bool.and_eq_true, decide_eq_true_eq] at hc
      simp only [Char.isDigit, Bool.and_eq_true, decide_eq_true_eq]
      simp only [UInt32.le_iff_toNat_le]
      have h1 : c.toNat = c.val.toNat := rfl
      have h2 : '0'.toNat = 48 := rfl
      have h3 : '9'.val.toNat = 57 := rfl
      have h4 : '0'.val.toNat = 48 := rfl
      omega
    have hp : c ≠ '.' := by rintro rfl; revert hc; decide
    have hcomma : c ≠ ',' := by rintro rfl; revert hc; decide
    rw [List.cons_append, cashDigits, if_neg hcomma, if_pos hcd, ih _ (fun d hd => h d (by simp [hd])),
      Nat.ofDigitChars_cons, Nat.mul_comm n 10]
    · rfl
    · intro x y e
      exact absurd e hp

theorem digitChar_isDigit (n : Nat) (h : n < 10) : (Nat.digitChar n).isDigit = true ∧
    (Nat.digitChar n).toNat - 48 = n := by
  have : ∀ n < 10, (Nat.digitChar n).isDigit = true ∧ (Nat.digitChar n).toNat - 48 = n := by decide
  exact this n h

/-- **C76** The server reads such a text as the amount. -/
theorem C76_server_in_partial (v : Int) (h : v.natAbs < 100 * 2 ^ 46) :
    cashIn (moneyValue v) = some v := by
  rw [C76_text_partial v h]
  have key : cashDigits 0 (Nat.toDigits 10 (v.natAbs / 100) ++
      ['.', Nat.digitChar (v.natAbs % 100 / 10), Nat.digitChar (v.natAbs % 10)]) = some v.natAbs := by
    have h1 := digitChar_isDigit (v.natAbs % 100 / 10) (by omega)
    have h2 := digitChar_isDigit (v.natAbs % 10) (by omega)
    rw [cashDigits_digits _ _ _ _ (isDig_toDigits 10 _ (by omega) (by omega)) h1.1 h2.1, h1.2, h2.2,
      Nat.ofDigitChars_toDigits (by omega) (by omega)]
    congr 1
    omega
  by_cases hv : v < 0
  · rw [if_pos hv]
    show cashIn ('$' :: '-' :: (Nat.toDigits 10 (v.natAbs / 100) ++
      ['.', Nat.digitChar (v.natAbs % 100 / 10), Nat.digitChar (v.natAbs % 10)])) = _
    rw [cashIn, key, Option.map_some]
    congr 1
    omega
  · rw [if_neg hv, List.nil_append]
    have hne : Nat.toDigits 10 (v.natAbs / 100) ≠ [] := Nat.toDigits_ne_nil
    have hdig := isDig_toDigits 10 (v.natAbs / 100) (by omega) (by omega)
    obtain ⟨c, ds, e⟩ := List.exists_cons_of_ne_nil hne
    have hc : isDig 10 c = true := hdig c (by rw [e]; simp)
    have h1 : c ≠ '-' := by rintro rfl; revert hc; decide
    rw [e] at key ⊢
    rw [List.cons_append] at key ⊢
    rw [cashIn, key]
    · rw [Option.map_some]
      congr 1
      omega
    · intro r hr
      exact h1 (List.cons.inj hr).1

/-- **C76** From 100 * 2^46 cents on an amount can be written as another one. -/
theorem C76_not_text : moneyValue 7036874417766401 = b!"$70368744177664.02" ∧
    cashIn (moneyValue 7036874417766401) = some 7036874417766402 ∧
    moneyValue 9223372036854775807 = b!"$92233720368547760.00" := by decide +kernel

theorem toCents_near (neg : Bool) (n : Nat) (h : n < moneyBound) :
    toCents (neg, toFloat n 100) = (if neg then -(n : Int) else n) ∨
    toCents (neg, toFloat n 100) = (if neg then -((n - 1 : Nat) : Int) else ((n - 1 : Nat) : Int)) := by
  have hp := product_near n h
  rw [toCents]
  simp only
  generalize toFloat (toFloat n 100 * 100) unit / unit = y at *
  have hb : y < 2 ^ 63 := by rw [moneyBound] at h; omega
  rw [if_pos hb]
  cases neg <;> simp <;> omega

/-- **C76** A written amount is scanned as the same amount, or as one that is a cent nearer to
zero. -/
theorem C76_scan_near_partial (v d : Int) (h : v.natAbs < 100 * 2 ^ 46) :
    ∃ r, moneyScan d (some (moneyValue v)) = .ok r ∧ (r = v ∨ r = v - v.sign) := by
  refine ⟨_, moneyElem_text v h, ?_⟩
  have := toCents_near (decide (v < 0)) v.natAbs h
  by_cases hv : v < 0
  · rw [Int.sign_eq_neg_one_of_neg hv]
    simp only [hv, decide_true, if_true] at this ⊢
    omega
  · simp only [hv, decide_false, Bool.false_eq_true, if_false] at this ⊢
    by_cases h0 : v = 0
    · subst h0
      revert this; simp
    · rw [Int.sign_eq_one_of_pos (by omega)]
      omega

/-- **C76** Whole dollars, halves and quarters are scanned as they were written. -/
theorem C76_scan_quarters_partial (v d : Int) (h : v.natAbs < 100 * 2 ^ 46) (hq : (25 : Int) ∣ v) :
    moneyScan d (some (moneyValue v)) = .ok v := by
  have e : moneyScan d (some (moneyValue v)) = .ok (toCents (decide (v < 0), toFloat v.natAbs 100)) :=
    moneyElem_text v h
  obtain ⟨w, hw⟩ := Int.natAbs_dvd_natAbs.mpr hq
  rw [e]
  have hw' : v.natAbs = 25 * w := hw
  have hp := product_quarters w (by rw [← hw']; exact h)
  rw [← hw'] at hp
  rw [toCents]
  simp only
  rw [hp, if_pos (by omega)]
  by_cases hv : v < 0
  · simp only [hv, decide_true, if_true]
    congr 1; omega
  · simp only [hv, decide_false, Bool.false_eq_true, if_false]
    congr 1; omega

/-- **C76** The amounts below a dollar that are scanned wrongly: 29, 57 and 58 cents lose a
cent. -/
theorem C76_not_scan :
    ((List.range 100).filter fun (n : Nat) => decide (moneyScan 0 (some (moneyValue n)) ≠ .ok n)) = [29, 57, 58] ∧
    moneyScan 0 (some b!"$0.29") = .ok 28 ∧ moneyScan 0 (some (moneyValue (-29))) = .ok (-28) := by
  decide +kernel

/-! ### The server's texts -/

theorem readDigits_bad (seen : Bool) (n k : Nat) (s : Bytes) (c : Char) (hc : c ∈ s)
    (h1 : c ≠ '.') (h2 : isDig 10 c = false) : readDigits seen n k s = none := by
  induction s generalizing seen n k with
  | nil => simp at hc
  | cons d s ih =>
    rw [readDigits]
    rcases List.mem_cons.mp hc with rfl | hc
    · rw [if_neg h1, h2]; rfl
    · split
      · split
        · rfl
        · exact ih _ _ _ hc
      · split
        · exact ih _ _ _ hc
        · rfl

theorem parseFloat_bad (s : Bytes) (c : Char) (hc : c ∈ s) (h1 : c ≠ '.') (h2 : isDig 10 c = false)
    (h3 : c ≠ '-') (h4 : c ≠ '+') : parseFloat s = .err .syntax := by
  rw [parseFloat]
  have hm : c ∈ (if s.head? = some '-' ∨ s.head? = some '+' then s.tail else s) := by
    split
    · rename_i h
      cases s with
      | nil => simp at hc
      | cons d s =>
        rcases List.mem_cons.mp hc with rfl | hc
        · simp [h3, h4] at h
        · exact hc
    · exact hc
  rw [readDigits_bad _ _ _ _ c hm h1 h2]
  simp

theorem group3_small (s : Bytes) (h : s.length ≤ 3) : group3 s = s := by
  match s, h with
  | [], _ => rfl
  | [a], _ => rfl
  | [a, b], _ => rfl
  | [a, b, c], _ => rfl

theorem group3_comma (s : Bytes) (h : 3 < s.length) : ',' ∈ group3 s := by
  induction s with
  | nil => simp at h
  | cons c r ih =>
    rw [group3]
    split
    · simp
    · rename_i hn
      simp only [List.length_cons] at h
      have : r.length ≠ 3 := by
        intro e; rw [e] at hn; simp at hn
      exact List.mem_cons_of_mem _ (ih (by omega))

theorem toDigits_short (n : Nat) : (Nat.toDigits 10 n).length ≤ 3 ↔ n < 1000 :=
  Nat.length_toDigits_le_iff (b := 10) (n := n) (k := 3) (by omega) (by omega)

/-- **C76** A text of the server of less than 1000 dollars and not below zero is the one the
valuer writes. -/
theorem C76_server_text (v : Int) (h0 : 0 ≤ v) (h1 : v < 100000) : cashOut v = moneyValue v := by
  rw [C76_text_partial v (by omega), cashOut, if_neg (by omega), group3_small]
  · simp
  · rw [toDigits_short]; omega

/-- **C76** All other texts of the server are an error: amounts below zero, where the sign
comes before the currency symbol, and amounts from 1000 dollars on, which have commas. -/
theorem C76_server_err (v d : Int) (h : v < 0 ∨ 100000 ≤ v) :
    moneyScan d (some (cashOut v)) = .err .syntax := by
  rw [cashOut]
  by_cases hv : v < 0
  · rw [if_pos hv]
    simp only [List.cons_append, List.nil_append, moneyScan, scanKeep, moneyElem]
    rw [parseFloat_bad _ '$' (by simp) (by decide) (by decide) (by decide) (by decide)]; rfl
  · rw [if_neg hv]
    simp only [List.cons_append, List.nil_append, moneyScan, scanKeep, moneyElem]
    have := group3_comma (Nat.toDigits 10 (v.natAbs / 100)) (by
      have := toDigits_short (v.natAbs / 100)
      omega)
    rw [parseFloat_bad _ ',' (by simp [this]) (by decide) (by decide) (by decide) (by decide)]; rfl

/-- **C76** NULL leaves the destination, the empty text is a panic. -/
theorem C76_null (d : Int) : moneyScan d none = .ok d ∧ moneyScan d (some []) = .panic := ⟨rfl, rfl⟩

/-! ### money[] -/

theorem moneyText_free (v : Int) (h : v.natAbs < moneyBound) :
    ∀ c ∈ moneyText v, c = '$' ∨ c = '-' ∨ c = '.' ∨ isDig 10 c = true := by
  rw [moneyText_eq v h]
  intro c hc
  rcases List.mem_cons.mp hc with rfl | hc
  · simp
  · rcases List.mem_append.mp hc with hc | hc
    · rcases List.mem_append.mp hc with hc | hc
      · split at hc
        · simp at hc; simp [hc]
        · simp at hc
      · exact .inr (.inr (.inr (isDig_toDigits 10 _ (by omega) (by omega) c hc)))
    · rcases List.mem_cons.mp hc with rfl | hc
      · simp
      · exact .inr (.inr (.inr (cents2_dig _ (Nat.mod_lt _ (by omega)) c hc)))

theorem moneyText_comma (v : Int) (h : v.natAbs < moneyBound) : ',' ∉ moneyText v := by
  intro hc
  rcases moneyText_free v h _ hc with h | h | h | h <;> revert h <;> decide

theorem moneyText_ne_nil (v : Int) : moneyText v ≠ [] := by simp [moneyText]

/-- **C76** An array is scanned element by element like the single amounts. -/
theorem C76_arr_partial (vs : List Int) (d : Option (List Int)) (h : ∀ v ∈ vs, v.natAbs < 100 * 2 ^ 46) :
    moneyArrScan d (moneyArrValue (some vs)) =
      (mapRes (fun v => moneyScan 0 (some (moneyValue v))) vs).map some := by
  have hm : ∀ xs : List Int, mapRes moneyElem (xs.map moneyText) =
      mapRes (fun v => moneyScan 0 (some (moneyValue v))) xs := by
    intro xs
    induction xs with
    | nil => rfl
    | cons x xs ih => rw [List.map_cons, mapRes, mapRes, ih]; rfl
  rw [moneyArrValue, arrValue_some, moneyArrScan, scanReset,
    parseCommaArray_lit '{' '}' (vs.map moneyText), ← hm]
  · rfl
  · intro y hy
    obtain ⟨v, hv, rfl⟩ := List.mem_map.mp hy
    exact moneyText_comma v (h v hv)
  · intro e
    cases vs with
    | nil => simp at e
    | cons v vs => exact moneyText_ne_nil v (List.cons.inj e).1

theorem moneyText_plain (v : Int) (h : v.natAbs < moneyBound) : Plain (moneyText v) := by
  have hf := moneyText_free v h
  intro c hc
  rcases hf c hc with rfl | rfl | rfl | hd
  · decide
  · decide
  · decide
  · refine ⟨?_, ?_, ?_, ?_, ?_, ?_⟩
    · cases hs : isSpace c with
      | false => rfl
      | true => exact absurd hd (by
          simp only [isSpace, Bool.or_eq_true, decide_eq_true_eq] at hs
          rcases hs with ((((rfl | rfl) | rfl) | rfl) | rfl) | rfl <;> decide)
    all_goals (rintro rfl; revert hd; decide)

/-- **C76** The server reads the elements of the literal as the texts of the amounts. -/
theorem C76_arr_server_in_partial (vs : List Int) (h : ∀ v ∈ vs, v.natAbs < 100 * 2 ^ 46) :
    ∃ lit, moneyArrValue (some vs) = some lit ∧ arrayIn lit = some (vs.map fun v => some (moneyValue v)) := by
  refine ⟨_, arrValue_some _ _, ?_⟩
  refine arrayIn_lit moneyText (fun v => some (moneyValue v)) vs fun v hv => ?_
  have hp := moneyText_plain v (h v hv)
  refine readsAs_plain _ hp (moneyText_ne_nil v) _ ?_
  rw [bareElem, trimEnd_plain _ hp]
  rfl

theorem mapRes_ok_all {α β : Type} (f : α → SR β) (xs : List α) (r : List β) (h : mapRes f xs = .ok r) :
    ∀ x ∈ xs, ∃ y, f x = .ok y := by
  induction xs generalizing r with
  | nil => simp
  | cons x xs ih =>
    rw [mapRes] at h
    cases h1 : f x with
    | err e => rw [h1] at h; cases h
    | panic => rw [h1] at h; cases h
    | ok y =>
      rw [h1, Res.bind_ok] at h
      cases h2 : mapRes f xs with
      | err e => rw [h2] at h; cases h
      | panic => rw [h2] at h; cases h
      | ok ys =>
        intro z hz
        rcases List.mem_cons.mp hz with rfl | hz
        · exact ⟨y, h1⟩
        · exact ih ys h2 z hz

theorem sepLoop_comma (sep : Char) (cur x t : Bytes) :
    sepLoop sep cur (x ++ sep :: t) = sepLoop sep cur x ++ sepLoop sep [] t := by
  induction x generalizing cur with
  | nil => simp [sepLoop]
  | cons c x ih =>
    rw [List.cons_append, sepLoop, sepLoop]
    split
    · rw [ih]; rfl
    · exact ih _

theorem sepLoop_joined (sep : Char) (x : Bytes) (xs : List Bytes) :
    sepLoop sep [] (joinWith [sep] (x :: xs)) = (x :: xs).flatMap (sepLoop sep []) := by
  induction xs generalizing x with
  | nil => simp [joinWith]
  | cons y ys ih =>
    rw [joinWith, List.append_assoc, List.singleton_append, sepLoop_comma, ih y]
    simp

theorem sepLoop_head (sep : Char) (cur s : Bytes) : ∃ t r, sepLoop sep cur s = (cur ++ t) :: r := by
  induction s generalizing cur with
  | nil => exact ⟨[], [], by simp [sepLoop]⟩
  | cons c s ih =>
    rw [sepLoop]
    split
    · exact ⟨[], _, by rw [List.append_nil]⟩
    · obtain ⟨t, r, e⟩ := ih (cur ++ [c])
      exact ⟨c :: t, r, by rw [e]; simp⟩

/-- The elements of a money[] of the server that are scanned. -/
def CashReadable (x : Option Int) : Prop := ∃ v, x = some v ∧ 0 ≤ v ∧ v < 100000

theorem first_bad (a b : Char) (p t : Bytes) (hb : b ∈ p) (h0 : ',' ∉ a :: p) (h3 : b ≠ '.')
    (h4 : isDig 10 b = false) (h5 : b ≠ '-') (h6 : b ≠ '+') :
    ∃ q ∈ sepLoop ',' [] (a :: (p ++ t)), moneyElem q = .err .syntax := by
  obtain ⟨t', r, e⟩ := sepLoop_head ',' (a :: p) t
  refine ⟨a :: p ++ t', ?_, ?_⟩
  · have := sepLoop_append ',' (a :: p) [] t h0
    rw [List.nil_append] at this
    rw [← List.cons_append, this, e]
    simp
  · rw [List.cons_append, moneyElem, parseFloat_bad _ b (by simp [hb]) h3 h4 h5 h6]; rfl

theorem elemOut_bad (x : Option Int) (h : ¬ CashReadable x) :
    ∃ p ∈ sepLoop ',' [] (elemOut (x.map cashOut)), moneyElem p = .err .syntax := by
  cases x with
  | none =>
    exact first_bad 'N' 'U' b!"U" b!"LL" (by simp) (by decide) (by decide) (by decide) (by decide)
      (by decide)
  | some v =>
    rw [Option.map_some, elemOut]
    by_cases hv : v < 0
    · obtain ⟨t, e⟩ : ∃ t, cashOut v = '-' :: '$' :: t := ⟨_, by rw [cashOut, if_pos hv]; rfl⟩
      split
      · obtain ⟨t', e'⟩ : ∃ t', quoteOut (cashOut v) = '"' :: (b!"-$" ++ t') :=
          ⟨_, by rw [e, quoteOut]; rfl⟩
        rw [e']
        exact first_bad _ '$' _ _ (by simp) (by decide) (by decide) (by decide) (by decide) (by decide)
      · rw [e]
        exact first_bad '-' '$' b!"$" t (by simp) (by decide) (by decide) (by decide) (by decide)
          (by decide)
    · have h1 : 100000 ≤ v := by
        by_cases h1 : v < 100000
        · exact absurd ⟨v, rfl, by omega, h1⟩ h
        · omega
      have hc : ',' ∈ cashOut v := by
        have := group3_comma (Nat.toDigits 10 (v.natAbs / 100)) (by
          have := toDigits_short (v.natAbs / 100)
          omega)
        simp [cashOut, this]
      obtain ⟨t, e⟩ : ∃ t, cashOut v = '$' :: t := ⟨_, by rw [cashOut, if_neg hv]; rfl⟩
      obtain ⟨t', e'⟩ : ∃ t', quoteOut (cashOut v) = '"' :: (b!"$" ++ t') :=
          ⟨_, by rw [e, quoteOut]; rfl⟩
      rw [if_pos, e']
      · exact first_bad _ '$' _ _ (by simp) (by decide) (by decide) (by decide) (by decide) (by decide)
      · rw [needsQuote, Bool.or_eq_true]
        exact .inr (List.any_eq_true.2 ⟨',', hc, by decide⟩)

/-- **C76** The server's text of a money[] is scanned exactly if no element is NULL, below zero,
or 1000 dollars or more. -/
theorem C76_arr_server (xs : List (Option Int)) (d : Option (List Int)) :
    (∃ r, moneyArrScan d (some (arrayOut (xs.map fun x => x.map cashOut))) = .ok r) ↔
      ∀ x ∈ xs, CashReadable x := by
  constructor
  · rintro ⟨r, h⟩ x hx
    apply Classical.byContradiction
    intro hn
    obtain ⟨p, hp, he⟩ := elemOut_bad x hn
    cases xs with
    | nil => simp at hx
    | cons y ys =>
      have hne : ∀ x : Option Int, elemOut (x.map cashOut) ≠ [] := by
        intro x e
        cases x with
        | none => cases e
        | some v =>
          rw [Option.map_some, elemOut] at e
          split at e
          · cases e
          · rename_i hq
            rw [e] at hq
            exact hq rfl
      have hl : (joinWith b!"," (((y :: ys).map fun x => x.map cashOut).map elemOut)).length > 0 := by
        rw [List.map_cons, List.map_cons]
        have := List.length_pos_iff.mpr (hne y)
        cases ys with
        | nil => simpa [joinWith] using this
        | cons z zs => rw [List.map_cons, List.map_cons, joinWith]; simp only [List.length_append]; omega
      rw [arrayOut, List.cons_append, moneyArrScan, scanReset, parseCommaArray, dropEnds_wrap] at h
      simp only [Option.bind_eq_bind, Option.bind_some, pure, ofParse, Res.bind_ok] at h
      rw [if_pos hl] at h
      simp only [List.map_cons] at h
      rw [sepLoop_joined] at h
      cases hm : mapRes moneyElem ((elemOut (y.map cashOut) ::
          (ys.map fun x => x.map cashOut).map elemOut).flatMap (sepLoop ',' [])) with
      | err e => rw [hm] at h; cases h
      | panic => rw [hm] at h; cases h
      | ok zs =>
        obtain ⟨w, hw⟩ := mapRes_ok_all _ _ _ hm p (by
          rw [List.mem_flatMap]
          refine ⟨elemOut (x.map cashOut), ?_, hp⟩
          rcases List.mem_cons.mp hx with rfl | hx
          · simp
          · exact List.mem_cons_of_mem _ (List.mem_map.mpr ⟨_, List.mem_map.mpr ⟨x, hx, rfl⟩, rfl⟩))
        rw [he] at hw
        cases hw
  · intro h
    obtain ⟨vs, rfl, hv⟩ : ∃ vs : List Int, xs = vs.map some ∧ ∀ v ∈ vs, 0 ≤ v ∧ v < 100000 := by
      clear d
      induction xs with
      | nil => exact ⟨[], rfl, by simp⟩
      | cons x xs ih =>
        obtain ⟨vs, rfl, hv⟩ := ih (fun y hy => h y (by simp [hy]))
        obtain ⟨v, rfl, h1⟩ := h x (by simp)
        refine ⟨v :: vs, rfl, ?_⟩
        intro w hw
        rcases List.mem_cons.mp hw with rfl | hw
        · exact h1
        · exact hv w hw
    have hb : ∀ v ∈ vs, v.natAbs < moneyBound := fun v hm => by
      have := hv v hm
      rw [moneyBound]; omega
    have e : some (arrayOut ((vs.map some).map fun x => x.map cashOut)) = moneyArrValue (some vs) := by
      rw [moneyArrValue, arrValue_some, arrayOut, List.map_map, List.map_map, List.cons_append]
      congr 4
      refine List.map_congr_left fun v hm => ?_
      have := C76_server_text v (hv v hm).1 (hv v hm).2
      simp only [Function.comp_apply, Option.map_some, elemOut, this, moneyValue]
      rw [if_neg]
      have hp := moneyText_plain v (hb v hm)
      rw [needsQuote]
      simp only [Bool.or_eq_true, not_or, List.isEmpty_iff]
      refine ⟨⟨moneyText_ne_nil v, by rw [moneyText]; exact Bool.false_ne_true⟩, ?_⟩
      rw [Bool.not_eq_true, List.any_eq_false]
      intro c hc
      obtain ⟨h1, h2, h3, h4, h5, h6⟩ := hp c hc
      simp [h1, h2, h3, h4, h5, h6]
    rw [e, C76_arr_partial vs d hb]
    have : ∀ ws : List Int, (∀ v ∈ ws, v.natAbs < moneyBound) →
        ∃ r, mapRes (fun v => moneyScan 0 (some (moneyValue v))) ws = .ok r := by
      intro ws hw
      induction ws with
      | nil => exact ⟨[], rfl⟩
      | cons w ws ih =>
        obtain ⟨r, hr⟩ := ih (fun v hv => hw v (by simp [hv]))
        obtain ⟨q, hq, -⟩ := C76_scan_near_partial w 0 (hw w (by simp))
        exact ⟨q :: r, by rw [mapRes, hq, Res.bind_ok, hr]; rfl⟩
    obtain ⟨r, hr⟩ := this vs hb
    exact ⟨some r, by rw [hr]; rfl⟩

/-- **C76** nil is NULL and NULL is nil. -/
theorem C76_arr_null (d : Option (List Int)) : moneyArrValue none = none ∧ moneyArrScan d none = .ok none :=
  ⟨rfl, rfl⟩

/-- **C76**, a case: 29 cents are written well and scanned as 28; NULL makes the array an error. -/
theorem C76_example : moneyArrValue (some [150, 29, -5]) = some b!"{$1.50,$0.29,$-0.05}" ∧
    moneyArrScan none (some b!"{$1.50,$0.29,$-0.05}") = .ok (some [150, 28, -5]) ∧
    moneyArrScan none (some b!"{$1.50,NULL}") = .err .syntax ∧
    moneyArrScan none (some b!"{\"$1,000.00\"}") = .err .syntax :=
  ⟨by decide +kernel, by decide +kernel, by decide +kernel, by decide +kernel⟩

end Verif.Pgsql
