import Verif.Pgsql.PropsFloat
/-
C80, part 2: decimal numbers as text, as the server reads them and as `strconv.ParseFloat` does.
-/
namespace Verif.Pgsql

open Verif Verif.PgServer

theorem isDigit_eq (c : Char) : c.isDigit = isDig 10 c := by
  rw [Char.isDigit, isDig]
  have h : c.toNat = c.val.toNat := rfl
  have h0 : '0'.toNat = 48 := rfl
  have h1 : '0'.val.toNat = 48 := rfl
  have h2 : '9'.val.toNat = 57 := rfl
  rw [Bool.eq_iff_iff]
  simp only [Bool.and_eq_true, decide_eq_true_eq, ge_iff_le, UInt32.le_iff_toNat_le, h, h0, h1, h2]
  omega

theorem all_isDig (s : Bytes) : s.all Char.isDigit = true ↔ ∀ c ∈ s, isDig 10 c = true := by
  simp only [List.all_eq_true, isDigit_eq]

theorem digit_notE (c : Char) (h : isDig 10 c = true) : notE c = true ∧ notPoint c = true := by
  constructor
  · rw [notE]
    cases he : (c == 'e' || c == 'E') with
    | false => rfl
    | true =>
      simp only [Bool.or_eq_true, beq_iff_eq] at he
      rcases he with rfl | rfl <;> revert h <;> decide
  · rw [notPoint]
    simp only [bne_iff_ne, ne_eq]
    rintro rfl; revert h; decide

theorem takeWhile_all {p : Char → Bool} (a b : Bytes) (h : ∀ c ∈ a, p c = true) :
    (a ++ b).takeWhile p = a ++ b.takeWhile p ∧ (a ++ b).dropWhile p = b.dropWhile p := by
  induction a with
  | nil => simp
  | cons c a ih =>
    have h1 := ih fun d hd => h d (by simp [hd])
    simp [h c (by simp), h1]

/-! ### What the texts of numbers look like -/

/-- The parts of a number: digits, digits after a point, exponent. -/
structure Parts (s i fr x : Bytes) (e : Nat × Nat) : Prop where
  text : (s = i ++ x ∧ fr = []) ∨ s = i ++ '.' :: (fr ++ x)
  dig : ∀ c ∈ i ++ fr, isDig 10 c = true
  ne : i ++ fr ≠ []
  expo : expIn x = some e
  head : ∀ c r, x = c :: r → notE c = false

theorem dropWhile_head {p : Char → Bool} (s : Bytes) (c : Char) (r : Bytes) (h : s.dropWhile p = c :: r) :
    p c = false := by
  induction s with
  | nil => simp at h
  | cons a s ih =>
    rw [List.dropWhile_cons] at h
    cases hp : p a with
    | true => rw [hp] at h; exact ih h
    | false => rw [hp] at h; simp at h; rw [← h.1]; exact hp

theorem magIn_parts (s : Bytes) (n d : Nat) (h : magIn s = some (n, d)) :
    ∃ i fr x e, Parts s i fr x e ∧ n = Nat.ofDigitChars 10 (i ++ fr) 0 * 10 ^ e.1 ∧
      d = 10 ^ (fr.length + e.2) := by
  rw [magIn] at h
  split at h
  · rename_i hc
    obtain ⟨e, he, h⟩ := Option.map_eq_some_iff.mp h
    simp only [Prod.mk.injEq] at h
    refine ⟨_, _, _, e, ⟨?_, (all_isDig _).mp hc.1, List.length_pos_iff.mp hc.2, he, ?_⟩, h.1.symm, h.2.symm⟩
    · have h1 := List.takeWhile_append_dropWhile (p := notE) (l := s)
      have h2 := List.takeWhile_append_dropWhile (p := notPoint) (l := s.takeWhile notE)
      cases hp : (s.takeWhile notE).dropWhile notPoint with
      | nil =>
        left
        rw [hp, List.append_nil] at h2
        refine ⟨?_, rfl⟩
        rw [h2, h1]
      | cons c r =>
        right
        have hd := dropWhile_head _ _ _ hp
        have : c = '.' := by
          rw [notPoint] at hd
          simpa using hd
        subst this
        rw [hp] at h2
        conv => lhs; rw [← h1, ← h2]
        simp
    · exact dropWhile_head s
  · cases h

theorem Parts.mag {s i fr x : Bytes} {e : Nat × Nat} (h : Parts s i fr x e) :
    magIn s = some (Nat.ofDigitChars 10 (i ++ fr) 0 * 10 ^ e.1, 10 ^ (fr.length + e.2)) := by
  have hi : ∀ c ∈ i, notE c = true := fun c hc => (digit_notE c (h.dig c (by simp [hc]))).1
  have hi' : ∀ c ∈ i, notPoint c = true := fun c hc => (digit_notE c (h.dig c (by simp [hc]))).2
  have hf : ∀ c ∈ fr, notE c = true := fun c hc => (digit_notE c (h.dig c (by simp [hc]))).1
  have hx : x.takeWhile notE = [] ∧ x.dropWhile notE = x := by
    cases x with
    | nil => simp
    | cons c r => simp [h.head c r rfl]
  have key : s.takeWhile notE = (if s = i ++ x ∧ fr = [] then i else i ++ '.' :: fr) ∧
      s.dropWhile notE = x := by
    rcases h.text with ht | ht
    · rw [if_pos ht, ht.1, (takeWhile_all i x hi).1, (takeWhile_all i x hi).2, hx.1, hx.2]
      simp
    · have hne : ¬ (s = i ++ x ∧ fr = []) := by
        rintro ⟨h1, rfl⟩
        rw [h1] at ht
        have := congrArg List.length ht
        simp at this
      have h1 := takeWhile_all i ('.' :: (fr ++ x)) hi
      have h2 := takeWhile_all fr x hf
      have hp : notE '.' = true := by decide
      rw [if_neg hne, ht, h1.1, h1.2]
      simp [hp, h2.1, h2.2, hx.1, hx.2]
  have hall := (all_isDig _).mpr h.dig
  have hlen := List.length_pos_iff.mpr h.ne
  rw [magIn, key.1, key.2, h.expo]
  by_cases hc : s = i ++ x ∧ fr = []
  · have h1 := takeWhile_all i [] hi'
    rw [List.append_nil] at h1
    rw [if_pos hc, h1.1, h1.2]
    obtain ⟨_, rfl⟩ := hc
    simp only [List.append_nil] at hall hlen
    simp [hall, hlen]
  · rw [if_neg hc]
    have h1 := takeWhile_all i ('.' :: fr) hi'
    have hp : notPoint '.' = false := by decide
    rw [h1.1, h1.2]
    simp only [List.takeWhile_cons, hp, Bool.false_eq_true, if_false, List.append_nil,
      List.dropWhile_cons, List.drop_succ_cons, List.drop_zero, hall, hlen, and_self, if_true,
      Option.map_some]

/-! ### ParseFloat -/

theorem mantissa_digits (seen any : Bool) (n k : Nat) (ds r : Bytes) (h : ∀ c ∈ ds, isDig 10 c = true) :
    mantissa seen any n k (ds ++ r) =
      mantissa seen (any || decide (ds ≠ [])) (Nat.ofDigitChars 10 ds n)
        (if seen then k + ds.length else k) r := by
  induction ds generalizing n k any with
  | nil => cases seen <;> cases any <;> simp
  | cons c ds ih =>
    have hc := h c (by simp)
    have hp : c ≠ '.' := by rintro rfl; revert hc; decide
    rw [List.cons_append, mantissa, if_neg (by simp [hp]), if_pos hc, ih _ _ _ (fun d hd => h d (by simp [hd])),
      Nat.ofDigitChars_cons, Nat.mul_comm n 10]
    cases seen <;> simp
    congr 1; omega

theorem mantissa_end (seen : Bool) (n k : Nat) (x : Bytes) (h : ∀ c r, x = c :: r → notE c = false) :
    mantissa seen true n k x = some (n, k, x) := by
  cases x with
  | nil => rfl
  | cons c r =>
    have hc := h c r rfl
    rw [notE] at hc
    simp only [Bool.not_eq_false', Bool.or_eq_true, beq_iff_eq] at hc
    have h1 : c ≠ '.' := by rintro rfl; simp at hc
    have h2 : isDig 10 c = false := by rcases hc with rfl | rfl <;> decide
    rw [mantissa, if_neg (by simp [h1]), h2]
    simp

theorem le_ofDigitChars (ds : Bytes) (a : Nat) : a ≤ Nat.ofDigitChars 10 ds a := by
  induction ds generalizing a with
  | nil => simp
  | cons c ds ih =>
    rw [Nat.ofDigitChars_cons]
    refine Nat.le_trans ?_ (ih _)
    omega

theorem expLoop_digits (ds : Bytes) (e : Nat) (h : ∀ c ∈ ds, isDig 10 c = true)
    (hb : Nat.ofDigitChars 10 ds e < 100000) : expLoop e ds = some (Nat.ofDigitChars 10 ds e) := by
  induction ds generalizing e with
  | nil => rfl
  | cons c ds ih =>
    rw [Nat.ofDigitChars_cons] at hb ⊢
    have := le_ofDigitChars ds (10 * e + (c.toNat - '0'.toNat))
    rw [expLoop, if_pos (h c (by simp)), if_pos (by omega), Nat.mul_comm e 10]
    exact ih _ (fun d hd => h d (by simp [hd])) hb

theorem expDigits_of (s : Bytes) (e : Nat) (h : expNat s = some e) : expDigits s = some e := by
  rw [expNat] at h
  split at h
  · rename_i hc
    rw [expDigits, if_neg (by omega), expLoop_digits s 0 ((all_isDig s).mp hc.2.1) hc.2.2]
    exact h
  · cases h

theorem expNat_head (s : Bytes) (e : Nat) (h : expNat s = some e) :
    s.head? ≠ some '-' ∧ s.head? ≠ some '+' := by
  rw [expNat] at h
  split at h
  · rename_i hc
    have hd := (all_isDig s).mp hc.2.1
    cases s with
    | nil => simp
    | cons c r =>
      have := hd c (by simp)
      simp only [List.head?_cons, ne_eq, Option.some.injEq]
      constructor <;> rintro rfl <;> revert this <;> decide
  · cases h

theorem exponent_of (x : Bytes) (e : Nat × Nat) (hx : ∀ c r, x = c :: r → notE c = false)
    (h : expIn x = some e) : exponent x = some e := by
  cases x with
  | nil => exact h
  | cons c r =>
    have hc := hx c r rfl
    rw [notE] at hc
    simp only [Bool.not_eq_false', Bool.or_eq_true, beq_iff_eq] at hc
    rw [exponent, if_pos hc]
    unfold expIn at h
    split at h
    · cases ‹c :: r = []›
    · rename_i s hs
      obtain ⟨-, rfl⟩ := List.cons.inj hs
      obtain ⟨v, hv, rfl⟩ := Option.map_eq_some_iff.mp h
      simp [expDigits_of _ _ hv]
    · rename_i s hs
      obtain ⟨-, rfl⟩ := List.cons.inj hs
      obtain ⟨v, hv, rfl⟩ := Option.map_eq_some_iff.mp h
      simp [expDigits_of _ _ hv]
    · rename_i s _ _ hs
      obtain ⟨-, rfl⟩ := List.cons.inj hs
      obtain ⟨v, hv, rfl⟩ := Option.map_eq_some_iff.mp h
      obtain ⟨h1, h2⟩ := expNat_head _ _ hv
      simp [h1, h2, expDigits_of _ _ hv]

theorem Parts.dec {s i fr x : Bytes} {e : Nat × Nat} (h : Parts s i fr x e) :
    readDec s = some (Nat.ofDigitChars 10 (i ++ fr) 0 * 10 ^ e.1, 10 ^ (fr.length + e.2)) := by
  have hi : ∀ c ∈ i, isDig 10 c = true := fun c hc => h.dig c (by simp [hc])
  have hf : ∀ c ∈ fr, isDig 10 c = true := fun c hc => h.dig c (by simp [hc])
  have hex := exponent_of x e h.head h.expo
  rw [readDec]
  rcases h.text with ⟨rfl, rfl⟩ | rfl
  · have hne : i ≠ [] := by have := h.ne; simpa using this
    rw [mantissa_digits _ _ _ _ _ _ hi]
    simp only [hne, ne_eq, not_false_eq_true, decide_true, Bool.or_true]
    rw [mantissa_end _ _ _ _ h.head]
    simp [hex]
  · rw [mantissa_digits _ _ _ _ _ _ hi, mantissa, if_pos (by simp), mantissa_digits _ _ _ _ _ _ hf]
    have ha : ((false || decide (i ≠ [])) || decide (fr ≠ [])) = true := by
      have := h.ne
      cases i with
      | nil => simpa using this
      | cons c r => simp
    rw [ha, mantissa_end _ _ _ _ h.head, Nat.ofDigitChars_append]
    simp [hex]

/-- The first character of a number. -/
theorem Parts.first {s i fr x : Bytes} {e : Nat × Nat} (h : Parts s i fr x e) :
    ∃ c r, s = c :: r ∧ (isDig 10 c = true ∨ c = '.') := by
  cases i with
  | cons c i =>
    refine ⟨c, ?_⟩
    have := h.dig c (by simp)
    rcases h.text with ⟨rfl, rfl⟩ | rfl
    · exact ⟨_, rfl, Or.inl this⟩
    · exact ⟨_, rfl, Or.inl this⟩
  | nil =>
    rcases h.text with ⟨rfl, rfl⟩ | rfl
    · exact absurd rfl h.ne
    · exact ⟨_, _, rfl, Or.inr rfl⟩

theorem fold_first (c : Char) (r : Bytes) (h : isDig 10 c = true ∨ c = '.' ∨ c = '-' ∨ c = '+') :
    fold (c :: r) ≠ b!"nan" ∧ fold (c :: r) ≠ b!"inf" ∧ fold (c :: r) ≠ b!"infinity" := by
  have hl : c.toLower = c := by
    rw [Char.toLower]
    split
    · rename_i hc
      exfalso
      have h1 : c.toNat = c.val.toNat := rfl
      have h2 : (65 : UInt32).toNat = 65 := rfl
      have h3 : (90 : UInt32).toNat = 90 := rfl
      have h4 : 'A'.val.toNat = 65 := rfl
      rcases h with h | rfl | rfl | rfl
      · rw [isDig] at h
        simp only [Bool.and_eq_true, decide_eq_true_eq] at h
        have h0 : '0'.toNat = 48 := rfl
        simp only [ge_iff_le, UInt32.le_iff_toNat_le] at hc
        omega
      all_goals (revert hc; decide)
    · rfl
  rw [fold, List.map_cons, hl]
  have hc : c ≠ 'n' ∧ c ≠ 'i' := by
    rcases h with h | rfl | rfl | rfl
    · constructor <;> rintro rfl <;> revert h <;> decide
    all_goals decide
  simp [hc.1, hc.2]

/-- A number is not taken for one of the names. -/
theorem special_sign (c : Char) (r : Bytes) (sign : Bytes) (hs : sign = [] ∨ sign = ['-'] ∨ sign = ['+'])
    (h : isDig 10 c = true ∨ c = '.') : specialFloat (sign ++ c :: r) = none ∧
      (sign ++ c :: r).head? = (if sign = [] then some c else sign.head?) ∧ c ≠ '-' ∧ c ≠ '+' := by
  have hf := fold_first c r (by rcases h with h | h; exact Or.inl h; exact Or.inr (Or.inl h))
  have hn : c ≠ '-' ∧ c ≠ '+' := by
    rcases h with h | rfl
    · constructor <;> rintro rfl <;> revert h <;> decide
    · decide
  have hs1 := fold_first '-' (c :: r) (by simp)
  have hs2 := fold_first '+' (c :: r) (by simp)
  simp only [fold] at hf hs1 hs2
  refine ⟨?_, ?_, hn⟩
  · rw [specialFloat]
    rcases hs with rfl | rfl | rfl
    · simp only [List.nil_append, hf.1, if_false, List.head?_cons, Option.some.injEq, hn.1, hn.2, or_self,
        hf.2.1, hf.2.2]
    · simp only [List.cons_append, List.nil_append, hs1.1, if_false, List.head?_cons, true_or, if_true,
        List.tail_cons, hf.2.1, hf.2.2, or_self]
    · simp only [List.cons_append, List.nil_append, hs2.1, if_false, List.head?_cons, or_true, if_true,
        List.tail_cons, hf.2.1, hf.2.2, or_self]
  · rcases hs with rfl | rfl | rfl <;> simp

theorem decIn_cases (t : Bytes) (neg : Bool) (n d : Nat) (h : decIn t = some (neg, n, d)) :
    ∃ sign s, t = sign ++ s ∧ (sign = [] ∨ sign = ['-'] ∨ sign = ['+']) ∧ neg = decide (sign = ['-']) ∧
      magIn s = some (n, d) := by
  unfold decIn at h
  split at h
  · rename_i s
    obtain ⟨v, hv, h⟩ := Option.map_eq_some_iff.mp h
    obtain ⟨rfl, rfl⟩ := Prod.mk.inj h
    exact ⟨['-'], s, rfl, by simp, by simp, hv⟩
  · rename_i s
    obtain ⟨v, hv, h⟩ := Option.map_eq_some_iff.mp h
    obtain ⟨rfl, rfl⟩ := Prod.mk.inj h
    exact ⟨['+'], s, rfl, by simp, by simp, hv⟩
  · obtain ⟨v, hv, h⟩ := Option.map_eq_some_iff.mp h
    obtain ⟨rfl, rfl⟩ := Prod.mk.inj h
    exact ⟨[], t, rfl, by simp, by simp, hv⟩

/-- ParseFloat reads decimal numbers as the nearest number of the format. -/
theorem parseFl_dec (f : FFmt) (t : Bytes) (neg : Bool) (n d : Nat) (h : decIn t = some (neg, n, d)) :
    parseFl f t = if round f n d < f.limit then .ok (.fin neg (round f n d)) else .err .range := by
  obtain ⟨sign, s, rfl, hs, rfl, hm⟩ := decIn_cases t neg n d h
  obtain ⟨i, fr, x, e, hp, rfl, rfl⟩ := magIn_parts s n d hm
  obtain ⟨c, r, rfl, hc⟩ := hp.first
  obtain ⟨h1, h2, h3, h4⟩ := special_sign c r sign hs hc
  rw [parseFl, h1, h2]
  rcases hs with rfl | rfl | rfl
  · simp [h3, h4, hp.dec]
  · simp [hp.dec]
  · simp [hp.dec]

/-- The denominator is a power of ten. -/
theorem decIn_pos (t : Bytes) (neg : Bool) (n d : Nat) (h : decIn t = some (neg, n, d)) : 0 < d := by
  obtain ⟨sign, s, rfl, hs, rfl, hm⟩ := decIn_cases t neg n d h
  obtain ⟨i, fr, x, e, hp, rfl, rfl⟩ := magIn_parts s n d hm
  exact Nat.pow_pos (by omega)

theorem special_inf (s : Bytes) (h : isInf s = true) :
    specialFloat s = some (.inf false) ∧ specialFloat ('+' :: s) = some (.inf false) ∧
      specialFloat ('-' :: s) = some (.inf true) := by
  rw [isInf] at h
  simp only [Bool.or_eq_true, decide_eq_true_eq] at h
  have hf1 := fold_first '-' s (by simp)
  have hf2 := fold_first '+' s (by simp)
  have hn : fold s ≠ b!"nan" := by rcases h with h | h <;> rw [h] <;> decide
  have hh : s.head? ≠ some '-' ∧ s.head? ≠ some '+' := by
    cases s with
    | nil => simp
    | cons c r =>
      simp only [List.head?_cons, ne_eq, Option.some.injEq]
      constructor
      · rintro rfl
        have := fold_first '-' r (by simp)
        rcases h with h | h
        · exact this.2.1 h
        · exact this.2.2 h
      · rintro rfl
        have := fold_first '+' r (by simp)
        rcases h with h | h
        · exact this.2.1 h
        · exact this.2.2 h
  simp only [fold] at h hf1 hf2 hn
  refine ⟨?_, ?_, ?_⟩
  · rw [specialFloat, if_neg hn]
    simp only [hh.1, hh.2, or_self, if_false, h, if_true, decide_false]
  · rw [specialFloat, if_neg hf2.1]
    simp [h]
  · rw [specialFloat, if_neg hf1.1]
    simp [h]

/-- **C80** What the server reads as a value of one of its types is read by ParseFloat for the same
size as the same value. -/
theorem C80_parse (f : FFmt) (hp : 2 ≤ f.prec) (t : Bytes) (v : Fl) (h : FloatReads f t v) :
    parseFl f t = .ok v := by
  rcases h with ⟨h, rfl⟩ | ⟨s, h1, h2, rfl⟩ | ⟨s, rfl, h2, rfl⟩ | ⟨neg, n, d, x, h1, rfl, h2, h3, h4⟩
  · have : specialFloat t = some .nan := by
      simp only [fold] at h
      rw [specialFloat, if_pos h]
    rw [parseFl, this]
  · have hi := special_inf s h2
    rcases h1 with rfl | rfl
    · rw [parseFl, hi.1]
    · rw [parseFl, hi.2.1]
  · rw [parseFl, (special_inf s h2).2.2]
  · have hx := (nearest_iff f hp n d x (decIn_pos t neg n d h1)).mp h2
    rw [parseFl_dec f t neg n d h1, ← hx, if_pos h3]

end Verif.Pgsql
