import Verif.Pgsql.PropsFloat2
import Verif.Pgsql.PropsNet4
/-
C80, part 3: the digits that are written, and the characters of numbers.
-/
namespace Verif.Pgsql

open Verif Verif.PgServer

/-! ### Shortest digits -/

theorem tens_eq : tens = unit * fives := by
  rw [tens, unit, fives, ← Nat.mul_pow]

theorem fives_pos : 0 < fives := Nat.pow_pos (by omega)

theorem tens_pos : 0 < tens := Nat.pow_pos (by omega)

theorem round_self (f : FFmt) (hp : 2 ≤ f.prec) (x : Nat) (hx : f.Fits x) : round f (x * fives) tens = x := by
  refine round_exact f hp _ _ x tens_pos ?_ hx
  rw [tens_eq, Nat.mul_assoc, Nat.mul_comm fives]

theorem round_between (f : FFmt) (hp : 2 ≤ f.prec) (x a b c : Nat) (h1 : a ≤ b) (h2 : b ≤ c)
    (ha : round f a tens = x) (hc : round f c tens = x) : round f b tens = x := by
  have := round_mono f hp a b tens tens_pos h1
  have := round_mono f hp b c tens tens_pos h2
  omega

/-- If a multiple of a power of ten is read back, then that nearest to the number on the same side. -/
theorem reads_side (f : FFmt) (hp : 2 ≤ f.prec) (x P q' : Nat) (hP : 0 < P) (hx : f.Fits x)
    (h : round f (q' * P) tens = x) :
    (q' ≤ x * fives / P ∧ round f (x * fives / P * P) tens = x) ∨
    (x * fives / P + 1 ≤ q' ∧ round f ((x * fives / P + 1) * P) tens = x) := by
  have hs := round_self f hp x hx
  rcases Nat.lt_or_ge (x * fives / P) q' with hq | hq
  · right
    refine ⟨hq, round_between f hp x _ _ _ ?_ (Nat.mul_le_mul_right P hq) hs h⟩
    have h1 := Nat.div_add_mod (x * fives) P
    have h2 := Nat.mod_lt (x * fives) hP
    rw [Nat.add_mul, Nat.mul_comm _ P, Nat.one_mul]
    omega
  · left
    exact ⟨hq, round_between f hp x _ _ _ (Nat.mul_le_mul_right P hq) (Nat.div_mul_le_self _ _) h hs⟩

theorem shortest_spec (f : FFmt) (hp : 2 ≤ f.prec) (x : Nat) (hx : f.Fits x) (p0 : Nat) :
    round f ((shortest f x p0).1 * 10 ^ (shortest f x p0).2) tens = x ∧ (shortest f x p0).2 ≤ p0 ∧
    (∀ p', (shortest f x p0).2 < p' → p' ≤ p0 → ∀ q', round f (q' * 10 ^ p') tens ≠ x) ∧
    (∀ q', round f (q' * 10 ^ (shortest f x p0).2) tens = x →
      dist (x * fives) ((shortest f x p0).1 * 10 ^ (shortest f x p0).2) ≤
        dist (x * fives) (q' * 10 ^ (shortest f x p0).2)) := by
  induction p0 with
  | zero =>
    refine ⟨?_, Nat.le_refl _, fun p' h1 h2 => ?_, fun q' _ => ?_⟩
    · rw [shortest, Nat.pow_zero, Nat.mul_one]; exact round_self f hp x hx
    · rw [shortest] at h1; simp only at h1; omega
    · rw [shortest, Nat.pow_zero, Nat.mul_one]; simp only [dist]; omega
  | succ p ih =>
    have hP : 0 < 10 ^ (p + 1) := Nat.pow_pos (by omega)
    have hside := fun q' => reads_side f hp x (10 ^ (p + 1)) q' hP hx
    have hdm := Nat.div_add_mod (x * fives) (10 ^ (p + 1))
    have hml := Nat.mod_lt (x * fives) hP
    have hmc : x * fives / 10 ^ (p + 1) * 10 ^ (p + 1) = 10 ^ (p + 1) * (x * fives / 10 ^ (p + 1)) :=
      Nat.mul_comm _ _
    have hsc : (x * fives / 10 ^ (p + 1) + 1) * 10 ^ (p + 1) =
        10 ^ (p + 1) * (x * fives / 10 ^ (p + 1)) + 10 ^ (p + 1) := by rw [Nat.add_mul, hmc, Nat.one_mul]
    rw [shortest]
    simp only [readsBack]
    generalize hq : x * fives / 10 ^ (p + 1) = q at *
    generalize hr : x * fives % 10 ^ (p + 1) = r at *
    by_cases hb : round f (q * 10 ^ (p + 1)) tens = x
    · by_cases ha : round f ((q + 1) * 10 ^ (p + 1)) tens = x
      · by_cases ht : 2 * r ≤ 10 ^ (p + 1)
        · simp only [hb, ha, ht, decide_true, Bool.not_true, Bool.false_or, Bool.and_self, if_true]
          refine ⟨trivial, Nat.le_refl _, fun p' h1 h2 => absurd h1 (by omega), fun q' h => ?_⟩
          rcases hside q' h with ⟨h1, -⟩ | ⟨h1, -⟩
          · have := Nat.mul_le_mul_right (10 ^ (p + 1)) h1
            simp only [dist]; omega
          · have := Nat.mul_le_mul_right (10 ^ (p + 1)) h1
            simp only [dist]; omega
        · simp only [hb, ha, ht, decide_true, decide_false, Bool.not_true, Bool.or_false, Bool.and_false,
            Bool.false_eq_true, if_false, if_true]
          refine ⟨trivial, Nat.le_refl _, fun p' h1 h2 => absurd h1 (by omega), fun q' h => ?_⟩
          rcases hside q' h with ⟨h1, -⟩ | ⟨h1, -⟩
          · have := Nat.mul_le_mul_right (10 ^ (p + 1)) h1
            simp only [dist]; omega
          · have := Nat.mul_le_mul_right (10 ^ (p + 1)) h1
            simp only [dist]; omega
      · simp only [hb, ha, decide_true, decide_false, Bool.not_false, Bool.true_or, Bool.and_self, if_true]
        refine ⟨trivial, Nat.le_refl _, fun p' h1 h2 => absurd h1 (by omega), fun q' h => ?_⟩
        rcases hside q' h with ⟨h1, -⟩ | ⟨-, h1⟩
        · have := Nat.mul_le_mul_right (10 ^ (p + 1)) h1
          simp only [dist]; omega
        · exact absurd h1 ha
    · by_cases ha : round f ((q + 1) * 10 ^ (p + 1)) tens = x
      · simp only [hb, ha, decide_true, decide_false, Bool.false_and, Bool.false_eq_true, if_false, if_true]
        refine ⟨trivial, Nat.le_refl _, fun p' h1 h2 => absurd h1 (by omega), fun q' h => ?_⟩
        rcases hside q' h with ⟨-, h1⟩ | ⟨h1, -⟩
        · exact absurd h1 hb
        · have := Nat.mul_le_mul_right (10 ^ (p + 1)) h1
          simp only [dist]; omega
      · simp only [hb, ha, decide_false, Bool.false_and, Bool.false_eq_true, if_false]
        obtain ⟨i1, i2, i3, i4⟩ := ih
        refine ⟨i1, by omega, fun p' h1 h2 q' h => ?_, i4⟩
        rcases Nat.lt_or_eq_of_le h2 with h2 | rfl
        · exact i3 p' h1 (by omega) q' h
        · rcases hside q' h with ⟨-, h1⟩ | ⟨-, h1⟩
          · exact hb h1
          · exact ha h1

theorem lt_firstDigit (x : Nat) : x * fives < 10 ^ firstDigit x := by
  refine Nat.lt_of_lt_of_le (Nat.lt_log2_self (n := x * fives)) ?_
  rw [firstDigit]
  generalize Nat.log2 (x * fives) + 1 = N
  refine Nat.le_of_not_lt fun h => ?_
  have h1 := Nat.pow_lt_pow_left h (show 93 ≠ 0 by omega)
  rw [← Nat.pow_mul, ← Nat.pow_mul] at h1
  have h2 : 10 ^ (28 * N) ≤ 10 ^ ((N * 28 / 93 + 1) * 93) := Nat.pow_le_pow_right (by omega) (by omega)
  have h3 : 2 ^ (N * 93) ≤ 10 ^ (28 * N) := by
    rw [Nat.mul_comm N, Nat.pow_mul, Nat.pow_mul]
    exact Nat.pow_le_pow_left (by decide +kernel) N
  omega

theorem fits_double (f : FFmt) (x : Nat) (h : f.Fits x) : f.Fits (2 * x) := by
  obtain ⟨m, e, rfl, hm, he⟩ := h
  refine ⟨m, e + 1, ?_, hm, by omega⟩
  rw [Nat.pow_succ, Nat.mul_comm 2, Nat.mul_assoc]

/-- No multiple of a greater power of ten is read back. -/
theorem shortest_first (f : FFmt) (hp : 2 ≤ f.prec) (x : Nat) (hx : f.Fits x) (h0 : x ≠ 0) (p' q' : Nat)
    (h : firstDigit x < p') : round f (q' * 10 ^ p') tens ≠ x := by
  intro hr
  have hlt := lt_firstDigit x
  by_cases hq : q' = 0
  · subst hq
    have : round f 0 tens = 0 := round_exact f hp 0 tens 0 tens_pos (by simp) (fits_zero f)
    rw [Nat.zero_mul] at hr
    omega
  · have h1 : 10 ^ (firstDigit x + 1) ≤ 10 ^ p' := Nat.pow_le_pow_right (by omega) h
    rw [Nat.pow_succ] at h1
    have h2 : 10 ^ p' ≤ q' * 10 ^ p' := Nat.le_mul_of_pos_left _ (by omega)
    have h3 := round_mono f hp (2 * x * fives) (q' * 10 ^ p') tens tens_pos (by
      rw [Nat.mul_assoc]; omega)
    rw [round_self f hp (2 * x) (fits_double f x hx)] at h3
    omega

/-! ### Text -/

theorem digitsN_eq (k n : Nat) : digitsN k n = lastDigits k n := by
  induction k generalizing n with
  | zero => rfl
  | succ k ih => rw [digitsN, lastDigits, ih]

theorem lastDigits_spec (k n : Nat) : (∀ c ∈ lastDigits k n, isDig 10 c = true) ∧
    (lastDigits k n).length = k ∧ ∀ a, Nat.ofDigitChars 10 (lastDigits k n) a = a * 10 ^ k + n % 10 ^ k := by
  induction k generalizing n with
  | zero => simp [lastDigits, Nat.mod_one]
  | succ k ih =>
    obtain ⟨h1, h2, h3⟩ := ih (n / 10)
    refine ⟨?_, ?_, fun a => ?_⟩
    · intro c hc
      rw [lastDigits, List.mem_append] at hc
      rcases hc with hc | hc
      · exact h1 c hc
      · simp only [List.mem_singleton] at hc
        subst hc
        rw [← isDigit_eq]
        exact (digitChar_isDigit _ (Nat.mod_lt _ (by omega))).1
    · rw [lastDigits]; simp [h2]
    · rw [lastDigits, Nat.ofDigitChars_append, h3, Nat.ofDigitChars_cons_digitChar_of_lt_ten (Nat.mod_lt _ (by omega)),
        Nat.ofDigitChars_nil]
      have e : n % 10 ^ (k + 1) = n % 10 + 10 * (n / 10 % 10 ^ k) := by
        rw [Nat.pow_succ, Nat.mul_comm, Nat.mod_mul]
      have e2 : a * 10 ^ (k + 1) = 10 * (a * 10 ^ k) := by
        rw [Nat.pow_succ, Nat.mul_comm _ 10, Nat.mul_left_comm]
      rw [e, e2]
      generalize a * 10 ^ k = u
      generalize n / 10 % 10 ^ k = w
      omega

theorem numMag_parts (n k : Nat) :
    Parts (numMag n k) (Nat.toDigits 10 (n / 10 ^ k)) (lastDigits k (n % 10 ^ k)) [] (0, 0) where
  text := by
    rw [numMag]
    by_cases hk : k = 0
    · left; subst hk; simp [lastDigits]
    · right; simp [hk]
  dig := by
    intro c hc
    rcases List.mem_append.mp hc with hc | hc
    · exact isDig_toDigits 10 _ (by omega) (by omega) c hc
    · exact (lastDigits_spec k _).1 c hc
  ne := by
    intro h
    exact Nat.toDigits_ne_nil (List.append_eq_nil_iff.mp h).1
  expo := rfl
  head := by intro c r h; cases h

theorem numMag_in (n k : Nat) : magIn (numMag n k) = some (n, 10 ^ k) := by
  have h := (numMag_parts n k).mag
  obtain ⟨-, h2, h3⟩ := lastDigits_spec k (n % 10 ^ k)
  have hd := Nat.div_add_mod n (10 ^ k)
  have hm : n / 10 ^ k * 10 ^ k = 10 ^ k * (n / 10 ^ k) := Nat.mul_comm _ _
  rw [h, Nat.ofDigitChars_append, Nat.ofDigitChars_toDigits (by omega) (by omega), h3, h2, Nat.mod_mod, hm, hd]
  simp

theorem decIn_plain (c : Char) (r : Bytes) (h1 : c ≠ '-') (h2 : c ≠ '+') :
    decIn (c :: r) = (magIn (c :: r)).map (false, ·) := by
  unfold decIn
  split
  · rename_i h; exact absurd (List.cons.inj h).1 h1
  · rename_i h; exact absurd (List.cons.inj h).1 h2
  · rfl

theorem decIn_num (neg : Bool) (n k : Nat) :
    decIn ((if neg then ['-'] else []) ++ numMag n k) = some (neg, n, 10 ^ k) := by
  have hm := numMag_in n k
  cases neg
  · obtain ⟨c, r, e, hc⟩ := (numMag_parts n k).first
    have := special_sign c r [] (by simp) hc
    simp only [Bool.false_eq_true, if_false, List.nil_append]
    rw [e] at hm ⊢
    rw [decIn_plain c r this.2.2.1 this.2.2.2, hm]; rfl
  · simp only [if_true, List.cons_append, List.nil_append, decIn, hm, Option.map_some]

theorem plainText_eq (q p : Nat) : plainText q p = numMag (q * 10 ^ (p - 1074)) (1074 - p) := by
  rw [plainText, numMag]
  by_cases h : 1074 ≤ p
  · have e : 1074 - p = 0 := by omega
    rw [if_pos h, e, if_pos rfl, Nat.pow_zero, Nat.div_one, List.append_nil]
  · have e : p - 1074 = 0 := by omega
    rw [if_neg h, e, if_neg (by omega), Nat.pow_zero, Nat.mul_one, digitsN_eq]

/-- The quotient the text stands for, in units of 10^-1074. -/
theorem round_text (f : FFmt) (q p : Nat) :
    round f (q * 10 ^ (p - 1074)) (10 ^ (1074 - p)) = round f (q * 10 ^ p) tens := by
  by_cases h : 1074 ≤ p
  · have e : 1074 - p = 0 := by omega
    have e2 : 10 ^ p = 10 ^ (p - 1074) * tens := by
      rw [tens, ← Nat.pow_add, Nat.sub_add_cancel h]
    have hs := round_scale f (q * 10 ^ (p - 1074)) 1 tens tens_pos
    rw [Nat.one_mul] at hs
    rw [e, Nat.pow_zero, e2, ← Nat.mul_assoc, hs]
  · have e : p - 1074 = 0 := by omega
    have e2 : tens = 10 ^ (1074 - p) * 10 ^ p := by
      rw [tens, ← Nat.pow_add, Nat.sub_add_cancel (by omega)]
    have hs := round_scale f q (10 ^ (1074 - p)) (10 ^ p) (Nat.pow_pos (by omega))
    rw [e, Nat.pow_zero, Nat.mul_one, e2, hs]

theorem fits_nearest (f : FFmt) (hp : 2 ≤ f.prec) (q p x : Nat) :
    f.Nearest (q * 10 ^ p) (10 ^ 1074) x ↔ round f (q * 10 ^ p) tens = x := by
  have := nearest_iff f hp (q * 10 ^ p) tens x tens_pos
  rw [tens] at this ⊢
  rw [this]
  exact eq_comm

theorem magDigits_round (f : FFmt) (hp : 2 ≤ f.prec) (x : Nat) (hx : f.Fits x) :
    round f ((magDigits f x).1 * 10 ^ (magDigits f x).2) tens = x := by
  rw [magDigits]
  by_cases h : x = 0
  · rw [if_pos h, h, Nat.zero_mul]
    exact round_exact f hp 0 tens 0 tens_pos (by simp) (fits_zero f)
  · rw [if_neg h]
    exact (shortest_spec f hp x hx (firstDigit x)).1

/-- **C80** A number is written without exponent, with the fewest digits that stand for a decimal to
which it is the nearest number of the format; among the decimals with as many digits the nearest is
taken. -/
theorem C80_shortest (f : FFmt) (hp : 2 ≤ f.prec) (neg : Bool) (x : Nat) (hx : f.Fits x) (h0 : x ≠ 0) :
    ∃ q p, fmtFloat f (.fin neg x) =
        (if neg then ['-'] else []) ++ numMag (q * 10 ^ (p - 1074)) (1074 - p) ∧
      f.Nearest (q * 10 ^ p) (10 ^ 1074) x ∧
      (∀ q' p', p < p' → ¬ f.Nearest (q' * 10 ^ p') (10 ^ 1074) x) ∧
      (∀ q', f.Nearest (q' * 10 ^ p) (10 ^ 1074) x →
        dist (x * 5 ^ 1074) (q * 10 ^ p) ≤ dist (x * 5 ^ 1074) (q' * 10 ^ p)) := by
  obtain ⟨s1, s2, s3, s4⟩ := shortest_spec f hp x hx (firstDigit x)
  refine ⟨(magDigits f x).1, (magDigits f x).2, ?_, ?_, ?_, ?_⟩
  · rw [fmtFloat, plainText_eq]
  · rw [fits_nearest f hp]; exact magDigits_round f hp x hx
  · rw [magDigits, if_neg h0]
    intro q' p' h
    rw [fits_nearest f hp]
    rcases Nat.lt_or_ge (firstDigit x) p' with h1 | h1
    · exact shortest_first f hp x hx h0 p' q' h1
    · exact s3 p' h h1 q'
  · rw [magDigits, if_neg h0]
    intro q'
    rw [fits_nearest f hp]
    intro h
    have := s4 q' h
    rw [fives] at this
    exact this

theorem fmt_dec (f : FFmt) (neg : Bool) (x : Nat) : decIn (fmtFloat f (.fin neg x)) =
    some (neg, (magDigits f x).1 * 10 ^ ((magDigits f x).2 - 1074), 10 ^ (1074 - (magDigits f x).2)) := by
  rw [fmtFloat, plainText_eq, decIn_num]

/-- **C80** The server reads what is written for a value of the same size as that value. -/
theorem C80_server_in (f : FFmt) (hp : 2 ≤ f.prec) (v : Fl) (hv : v.In f) : FloatReads f (fmtFloat f v) v := by
  match v, hv with
  | .nan, _ => exact Or.inl ⟨show fold b!"NaN" = _ by decide, rfl⟩
  | .inf false, _ => exact Or.inr (Or.inl ⟨b!"Inf", Or.inr rfl, by decide, rfl⟩)
  | .inf true, _ => exact Or.inr (Or.inr (Or.inl ⟨b!"Inf", rfl, by decide, rfl⟩))
  | .fin neg x, ⟨hx, hl⟩ =>
    have hr := magDigits_round f hp x hx
    refine Or.inr (Or.inr (Or.inr ⟨neg, _, _, x, fmt_dec f neg x, rfl, ?_, hl, fun h h0 => h ?_⟩))
    · rw [nearest_iff f hp _ _ _ (Nat.pow_pos (by omega)), round_text, hr]
    · rw [magDigits, if_pos h0]; exact Nat.zero_mul _

/-! ### Characters -/

/-- The characters of floats. -/
def floatChar (c : Char) : Bool :=
  isDig 10 c || (b!"+-.").contains c || (b!"enaifty").contains c.toLower

theorem floatChar_dig (c : Char) (h : isDig 10 c = true) : floatChar c = true := by
  rw [floatChar, h]; rfl

theorem expIn_chars (x : Bytes) (e : Nat × Nat) (h : expIn x = some e)
    (hh : ∀ c r, x = c :: r → notE c = false) : ∀ c ∈ x, floatChar c = true := by
  have hd : ∀ s e, expNat s = some e → ∀ c ∈ s, floatChar c = true := by
    intro s e h c hc
    rw [expNat] at h
    split at h
    · rename_i hs
      exact floatChar_dig c ((all_isDig s).mp hs.2.1 c hc)
    · cases h
  have h1 : ∀ c, notE c = false → floatChar c = true := by
    intro c hc
    rw [notE] at hc
    simp only [Bool.not_eq_false', Bool.or_eq_true, beq_iff_eq] at hc
    rcases hc with rfl | rfl <;> decide
  unfold expIn at h
  split at h
  · simp
  · obtain ⟨v, hv, -⟩ := Option.map_eq_some_iff.mp h
    intro c hc
    simp only [List.mem_cons] at hc
    rcases hc with rfl | rfl | hc
    · exact h1 _ (hh _ _ rfl)
    · decide
    · exact hd _ _ hv c hc
  · obtain ⟨v, hv, -⟩ := Option.map_eq_some_iff.mp h
    intro c hc
    simp only [List.mem_cons] at hc
    rcases hc with rfl | rfl | hc
    · exact h1 _ (hh _ _ rfl)
    · decide
    · exact hd _ _ hv c hc
  · obtain ⟨v, hv, -⟩ := Option.map_eq_some_iff.mp h
    intro c hc
    simp only [List.mem_cons] at hc
    rcases hc with rfl | hc
    · exact h1 _ (hh _ _ rfl)
    · exact hd _ _ hv c hc

theorem decIn_chars (t : Bytes) (neg : Bool) (n d : Nat) (h : decIn t = some (neg, n, d)) :
    (∀ c ∈ t, floatChar c = true) ∧ ∃ c r, t = c :: r ∧ c.toLower ≠ 'n' ∧ lower c ≠ 'n' := by
  obtain ⟨sign, s, rfl, hs, rfl, hm⟩ := decIn_cases t neg n d h
  obtain ⟨i, fr, x, e, hp, rfl, rfl⟩ := magIn_parts s n d hm
  have hx := expIn_chars x e hp.expo hp.head
  have hi : ∀ c ∈ i, floatChar c = true := fun c hc => floatChar_dig c (hp.dig c (by simp [hc]))
  have hf : ∀ c ∈ fr, floatChar c = true := fun c hc => floatChar_dig c (hp.dig c (by simp [hc]))
  have hss : ∀ c ∈ s, floatChar c = true := by
    rcases hp.text with ⟨rfl, rfl⟩ | rfl
    · intro c hc
      rcases List.mem_append.mp hc with hc | hc
      · exact hi c hc
      · exact hx c hc
    · intro c hc
      simp only [List.mem_append, List.mem_cons] at hc
      rcases hc with hc | rfl | hc | hc
      · exact hi c hc
      · decide
      · exact hf c hc
      · exact hx c hc
  refine ⟨?_, ?_⟩
  · intro c hc
    rcases List.mem_append.mp hc with hc | hc
    · rcases hs with rfl | rfl | rfl
      · cases hc
      · simp only [List.mem_singleton] at hc; subst hc; decide
      · simp only [List.mem_singleton] at hc; subst hc; decide
    · exact hss c hc
  · rcases hs with rfl | rfl | rfl
    · obtain ⟨c, r, rfl, hc⟩ := hp.first
      refine ⟨c, r, rfl, ?_, ?_⟩
      · intro h
        have := fold_first c b!"an" (by rcases hc with h | h; exact Or.inl h; exact Or.inr (Or.inl h))
        apply this.1
        rw [fold, List.map_cons, h]; rfl
      · intro h
        rcases hc with hc | rfl
        · rw [lower] at h
          split at h
          · rename_i hl
            rw [isDig] at hc
            simp only [Bool.and_eq_true, decide_eq_true_eq] at hc
            have h0 : '0'.toNat = 48 := rfl
            have h1 : 'A'.toNat = 65 := rfl
            omega
          · subst h; revert hc; decide
        · revert h; decide
    · exact ⟨'-', s, rfl, by decide, by decide⟩
    · exact ⟨'+', s, rfl, by decide, by decide⟩

theorem fold_chars (s name : Bytes) (h : fold s = name) (hn : ∀ c ∈ name, (b!"enaifty").contains c = true) :
    ∀ c ∈ s, floatChar c = true := by
  intro c hc
  have : c.toLower ∈ fold s := List.mem_map_of_mem hc
  rw [h] at this
  rw [floatChar, hn _ this, Bool.or_true]

theorem isNull_first (c : Char) (r : Bytes) (h : lower c ≠ 'n') : isNull (c :: r) = false := by
  rw [isNull, List.map_cons]
  simp [h]

theorem isNull_length (s : Bytes) (h : s.length ≠ 4) : isNull s = false := by
  rw [isNull]
  cases hh : (s.map lower == b!"null") with
  | false => rfl
  | true =>
    have := congrArg List.length (by simpa using hh : s.map lower = b!"null")
    simp at this
    exact absurd this h

theorem isInf_chars (s : Bytes) (h : isInf s = true) :
    (∀ c ∈ s, floatChar c = true) ∧ s ≠ [] ∧ s.length ≠ 4 := by
  rw [isInf] at h
  simp only [Bool.or_eq_true, decide_eq_true_eq] at h
  have hl : (fold s).length = s.length := by rw [fold, List.length_map]
  rcases h with h | h
  · refine ⟨fold_chars s _ h (by decide), ?_, ?_⟩
    · rintro rfl; cases h
    · rw [h] at hl; simp at hl; omega
  · refine ⟨fold_chars s _ h (by decide), ?_, ?_⟩
    · rintro rfl; cases h
    · rw [h] at hl; simp at hl; omega

theorem floatReads_chars (f : FFmt) (t : Bytes) (v : Fl) (h : FloatReads f t v) :
    (∀ c ∈ t, floatChar c = true) ∧ t ≠ [] ∧ isNull t = false := by
  rcases h with ⟨h, rfl⟩ | ⟨s, h1, h2, rfl⟩ | ⟨s, rfl, h2, rfl⟩ | ⟨neg, n, d, x, h1, -⟩
  · refine ⟨fold_chars t _ h (by decide), ?_, isNull_length t ?_⟩
    · rintro rfl; cases h
    · have hl : (fold t).length = t.length := by rw [fold, List.length_map]
      rw [h] at hl; simp at hl; omega
  · obtain ⟨c1, c2, c3⟩ := isInf_chars s h2
    rcases h1 with rfl | rfl
    · exact ⟨c1, c2, isNull_length _ c3⟩
    · refine ⟨?_, by simp, isNull_first _ _ (by decide)⟩
      intro c hc
      rcases List.mem_cons.mp hc with rfl | hc
      · decide
      · exact c1 c hc
  · obtain ⟨c1, c2, c3⟩ := isInf_chars s h2
    refine ⟨?_, by simp, isNull_first _ _ (by decide)⟩
    intro c hc
    rcases List.mem_cons.mp hc with rfl | hc
    · decide
    · exact c1 c hc
  · obtain ⟨h2, c, r, rfl, -, h4⟩ := decIn_chars t neg n d h1
    exact ⟨h2, by simp, isNull_first _ _ h4⟩

theorem floatChar_plain (t : Bytes) (h : ∀ c ∈ t, floatChar c = true) : Plain t := by
  intro c hc
  have hf := h c hc
  refine ⟨?_, ?_, ?_, ?_, ?_, ?_⟩
  · cases hs : isSpace c with
    | false => rfl
    | true =>
      simp only [isSpace, Bool.or_eq_true, decide_eq_true_eq] at hs
      rcases hs with ((((rfl | rfl) | rfl) | rfl) | rfl) | rfl <;> revert hf <;> decide
  all_goals (rintro rfl; revert hf; decide)

end Verif.Pgsql
