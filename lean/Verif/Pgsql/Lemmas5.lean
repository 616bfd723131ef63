import Verif.Pgsql.Lemmas4
/-
Lemmas about integers as text, hexadecimal text and uuids.
-/
namespace Verif.Pgsql

open Verif Verif.PgServer

/-! ### Integers -/

theorem isDig_digitChar (base d : Nat) (hb : base ≤ 10) (hd : d < base) :
    isDig base d.digitChar = true := by
  have := Nat.toNat_digitChar_of_lt_ten (n := d) (by omega)
  have h0 : ('0' : Char).toNat = 48 := rfl
  simp only [isDig, Bool.and_eq_true, decide_eq_true_eq, this, h0]
  omega

theorem isDig_toDigits (base n : Nat) (h1 : 1 < base) (h2 : base ≤ 10) :
    ∀ c ∈ Nat.toDigits base n, isDig base c = true := by
  induction n using Nat.strongRecOn with
  | ind n ih =>
    rw [Nat.toDigits_eq_if h1]
    split
    · intro c hc
      simp only [List.mem_singleton] at hc
      subst hc
      exact isDig_digitChar base n h2 (by assumption)
    · intro c hc
      rename_i hn
      rw [List.mem_append] at hc
      rcases hc with hc | hc
      · exact ih (n / base) (Nat.div_lt_self (by omega) h1) c hc
      · simp only [List.mem_singleton] at hc
        subst hc
        exact isDig_digitChar base _ h2 (Nat.mod_lt _ (by omega))

theorem parseNat_toDigits (base n : Nat) (h1 : 1 < base) (h2 : base ≤ 10) :
    parseNat base (Nat.toDigits base n) = some n := by
  rw [parseNat, if_neg, if_pos, Nat.ofDigitChars_toDigits h1 h2]
  · exact List.all_eq_true.mpr (isDig_toDigits base n h1 h2)
  · intro h
    exact Nat.toDigits_ne_nil (List.length_eq_zero_iff.mp h)

theorem head_toDigits (base n : Nat) (h1 : 1 < base) (h2 : base ≤ 10) (c : Char)
    (hc : isDig base c = false) : (Nat.toDigits base n).head? ≠ some c := by
  intro h
  have := isDig_toDigits base n h1 h2 c (List.mem_of_head? h)
  simp [hc] at this

theorem not_mem_fmtInt (base : Nat) (v : Int) (h1 : 1 < base) (h2 : base ≤ 10) (c : Char)
    (hc : isDig base c = false) (hm : c ≠ '-') : c ∉ fmtInt base v := by
  have := isDig_toDigits base v.natAbs h1 h2 c
  unfold fmtInt
  split
  · simp only [List.mem_cons, not_or]
    exact ⟨hm, fun h => by simp [hc] at this; exact this h⟩
  · exact fun h => by simp [hc] at this; exact this h

theorem isDig_minus (base : Nat) : isDig base '-' = false := by
  simp [isDig]

theorem isDig_plus (base : Nat) : isDig base '+' = false := by
  simp [isDig]

theorem isDig_comma (base : Nat) : isDig base ',' = false := by
  simp [isDig]

/-- The integers of a two's complement type of the given width. -/
def InRange (bits : Nat) (v : Int) : Prop := -(2 ^ (bits - 1) : Int) ≤ v ∧ v < 2 ^ (bits - 1)

instance (bits : Nat) (v : Int) : Decidable (InRange bits v) := by
  unfold InRange; infer_instance

theorem parseInt_fmtInt (base bits : Nat) (v : Int) (h1 : 1 < base) (h2 : base ≤ 10)
    (hr : InRange bits v) : parseInt base bits (fmtInt base v) = .ok v := by
  have hp : ((2 ^ (bits - 1) : Nat) : Int) = (2 : Int) ^ (bits - 1) := by simp
  obtain ⟨hr1, hr2⟩ := hr
  by_cases hv : v < 0
  · have e : fmtInt base v = '-' :: Nat.toDigits base v.natAbs := by rw [fmtInt, if_pos hv]
    have hle : v.natAbs ≤ 2 ^ (bits - 1) := by omega
    simp only [parseInt, e, List.head?_cons, true_or, if_true, List.tail_cons,
      parseNat_toDigits base _ h1 h2, if_pos hle]
    congr 1; omega
  · have e : fmtInt base v = Nat.toDigits base v.natAbs := by rw [fmtInt, if_neg hv]
    have hm := head_toDigits base v.natAbs h1 h2 '-' (isDig_minus base)
    have hq := head_toDigits base v.natAbs h1 h2 '+' (isDig_plus base)
    have hlt : v.natAbs < 2 ^ (bits - 1) := by omega
    simp only [parseInt, e, hm, hq, or_false, if_false, parseNat_toDigits base _ h1 h2,
      if_pos hlt]
    congr 1; omega

theorem parseInt_fmtInt_range (base bits : Nat) (v : Int) (h1 : 1 < base) (h2 : base ≤ 10)
    (hr : ¬ InRange bits v) : parseInt base bits (fmtInt base v) = .err .range := by
  have hp : ((2 ^ (bits - 1) : Nat) : Int) = (2 : Int) ^ (bits - 1) := by simp
  have hr' : v < -(2 ^ (bits - 1) : Int) ∨ 2 ^ (bits - 1) ≤ v := by
    unfold InRange at hr; omega
  by_cases hv : v < 0
  · have e : fmtInt base v = '-' :: Nat.toDigits base v.natAbs := by rw [fmtInt, if_pos hv]
    have hle : ¬ v.natAbs ≤ 2 ^ (bits - 1) := by omega
    simp only [parseInt, e, List.head?_cons, true_or, if_true, List.tail_cons,
      parseNat_toDigits base _ h1 h2, if_neg hle]
  · have e : fmtInt base v = Nat.toDigits base v.natAbs := by rw [fmtInt, if_neg hv]
    have hm := head_toDigits base v.natAbs h1 h2 '-' (isDig_minus base)
    have hq := head_toDigits base v.natAbs h1 h2 '+' (isDig_plus base)
    have hlt : ¬ v.natAbs < 2 ^ (bits - 1) := by omega
    simp only [parseInt, e, hm, hq, or_false, if_false, parseNat_toDigits base _ h1 h2,
      if_neg hlt]

theorem parseUint_toDigits (base bits n : Nat) (h1 : 1 < base) (h2 : base ≤ 10) :
    parseUint base bits (Nat.toDigits base n) = if n < 2 ^ bits then .ok n else .err .range := by
  rw [parseUint, parseNat_toDigits base n h1 h2]

/-! ### Hexadecimal -/

theorem hexDigit_props : ∀ n < 16, fromHex (hexDigit n) = some n ∧ hexVal (hexDigit n) = some n ∧
    hexDigit n ≠ ',' ∧ hexDigit n ≠ '"' ∧ hexDigit n ≠ '\\' ∧ hexDigit n ≠ '-' := by decide

theorem hexEncode_cons (b : UInt8) (bs : List UInt8) :
    hexEncode (b :: bs) = hexDigit (b.toNat / 16) :: hexDigit (b.toNat % 16) :: hexEncode bs := rfl

theorem hexEncode_append (a b : List UInt8) : hexEncode (a ++ b) = hexEncode a ++ hexEncode b := by
  simp [hexEncode]

theorem u8_hi (b : UInt8) : b.toNat / 16 < 16 := by have := UInt8.toNat_lt b; omega

theorem u8_back (b : UInt8) : UInt8.ofNat (b.toNat / 16 * 16 + b.toNat % 16) = b := by
  have : b.toNat / 16 * 16 + b.toNat % 16 = b.toNat := by omega
  rw [this, UInt8.ofNat_toNat]

theorem hexDecode_hexEncode (bs : List UInt8) : hexDecode (hexEncode bs) = .ok bs := by
  induction bs with
  | nil => rfl
  | cons b bs ih =>
    rw [hexEncode_cons, hexDecode, (hexDigit_props _ (u8_hi b)).1,
      (hexDigit_props _ (Nat.mod_lt _ (by decide))).1, ih]
    simp only [Res.map_ok, u8_back]

theorem byteaHex_hexEncode (bs : List UInt8) : byteaHex (hexEncode bs) = some bs := by
  induction bs with
  | nil => rfl
  | cons b bs ih =>
    rw [hexEncode_cons, byteaHex, (hexDigit_props _ (u8_hi b)).2.1,
      (hexDigit_props _ (Nat.mod_lt _ (by decide))).2.1, ih]
    have := u8_back b
    rw [Nat.mul_comm] at this
    simp only [Option.bind_eq_bind, Option.bind_some, this]
    rfl

theorem not_mem_hexEncode (bs : List UInt8) :
    ',' ∉ hexEncode bs ∧ '"' ∉ hexEncode bs ∧ '\\' ∉ hexEncode bs := by
  induction bs with
  | nil => decide
  | cons b bs ih =>
    have h1 := hexDigit_props _ (u8_hi b)
    have h2 := hexDigit_props (b.toNat % 16) (Nat.mod_lt _ (by decide))
    rw [hexEncode_cons]
    simp only [List.mem_cons, not_or]
    exact ⟨⟨h1.2.2.1.symm, h2.2.2.1.symm, ih.1⟩, ⟨h1.2.2.2.1.symm, h2.2.2.2.1.symm, ih.2.1⟩,
      ⟨h1.2.2.2.2.1.symm, h2.2.2.2.2.1.symm, ih.2.2⟩⟩

theorem length_hexEncode (bs : List UInt8) : (hexEncode bs).length = 2 * bs.length := by
  induction bs with
  | nil => rfl
  | cons b bs ih => rw [hexEncode_cons]; simp only [List.length_cons, ih]; omega

theorem hexDecodeInto_hexEncode (n : Nat) (bs : List UInt8) (h : bs.length ≤ n) :
    hexDecodeInto n (hexEncode bs) = .ok bs := by
  induction bs generalizing n with
  | nil => simp [hexEncode, hexDecodeInto]
  | cons b bs ih =>
    cases n with
    | zero => simp at h
    | succ n =>
      rw [hexEncode_cons, hexDecodeInto, (hexDigit_props _ (u8_hi b)).1,
        (hexDigit_props _ (Nat.mod_lt _ (by decide))).1]
      simp only [ih n (by simpa using h)]
      simp only [Res.map_ok, u8_back]

/-! ### uuids -/

theorem length_formatUUID (u : List UInt8) (h : u.length = 16) : (formatUUID u).length = 36 := by
  simp [formatUUID, length_hexEncode, h]

theorem comma_formatUUID (u : List UInt8) : ',' ∉ formatUUID u := by
  simp [formatUUID, (not_mem_hexEncode _).1]

/-- Every 16 bytes as 16 separate variables. -/
theorem bytes16 {P : List UInt8 → Prop}
    (h : ∀ b0 b1 b2 b3 b4 b5 b6 b7 b8 b9 b10 b11 b12 b13 b14 b15, P [b0, b1, b2, b3, b4, b5, b6, b7, b8, b9, b10, b11, b12, b13, b14, b15])
    (u : List UInt8) (hu : u.length = 16) : P u := by
  match u, hu with
  | [b0, b1, b2, b3, b4, b5, b6, b7, b8, b9, b10, b11, b12, b13, b14, b15], _ =>
    exact h b0 b1 b2 b3 b4 b5 b6 b7 b8 b9 b10 b11 b12 b13 b14 b15

theorem parseUUID_formatUUID (spare : Bytes) (u : List UInt8) (h : u.length = 16) :
    parseUUID spare (formatUUID u) = .ok u := by
  revert u
  refine bytes16 ?_
  intro b0 b1 b2 b3 b4 b5 b6 b7 b8 b9 b10 b11 b12 b13 b14 b15
  have s1 : slice (formatUUID [b0, b1, b2, b3, b4, b5, b6, b7, b8, b9, b10, b11, b12, b13, b14, b15]) spare 0 8 = .ok (hexEncode [b0, b1, b2, b3]) := by
    rw [slice, if_neg (by simp [length_formatUUID]; omega)]; rfl
  have s2 : slice (formatUUID [b0, b1, b2, b3, b4, b5, b6, b7, b8, b9, b10, b11, b12, b13, b14, b15]) spare 9 13 = .ok (hexEncode [b4, b5]) := by
    rw [slice, if_neg (by simp [length_formatUUID]; omega)]; rfl
  have s3 : slice (formatUUID [b0, b1, b2, b3, b4, b5, b6, b7, b8, b9, b10, b11, b12, b13, b14, b15]) spare 14 18 = .ok (hexEncode [b6, b7]) := by
    rw [slice, if_neg (by simp [length_formatUUID]; omega)]; rfl
  have s4 : slice (formatUUID [b0, b1, b2, b3, b4, b5, b6, b7, b8, b9, b10, b11, b12, b13, b14, b15]) spare 19 23 = .ok (hexEncode [b8, b9]) := by
    rw [slice, if_neg (by simp [length_formatUUID]; omega)]; rfl
  have s5 : sliceFrom (formatUUID [b0, b1, b2, b3, b4, b5, b6, b7, b8, b9, b10, b11, b12, b13, b14, b15]) 24 = .ok (hexEncode [b10, b11, b12, b13, b14, b15]) := by
    rw [sliceFrom, if_neg (by simp [length_formatUUID])]; rfl
  simp only [parseUUID, s1, s2, s3, s4, s5, Res.bind_ok, Res.bind_ok', Res.pure_ok,
    hexDecodeInto_hexEncode _ _ (show [b0, b1, b2, b3].length ≤ 4 by simp),
    hexDecodeInto_hexEncode _ _ (show [b4, b5].length ≤ 2 by simp),
    hexDecodeInto_hexEncode _ _ (show [b6, b7].length ≤ 2 by simp),
    hexDecodeInto_hexEncode _ _ (show [b8, b9].length ≤ 2 by simp),
    hexDecodeInto_hexEncode _ _ (show [b10, b11, b12, b13, b14, b15].length ≤ 6 by simp)]
  rfl

theorem mapRes_withSpare (fin : Bytes) (us : List (List UInt8)) (h : ∀ u ∈ us, u.length = 16) :
    mapRes (fun e => parseUUID e.2 e.1) (withSpare fin (us.map formatUUID)) = .ok us := by
  induction us with
  | nil => rfl
  | cons u us ih =>
    rw [List.map_cons, withSpare, mapRes]
    simp only [parseUUID_formatUUID _ u (h u (by simp)), ih (fun v hv => h v (by simp [hv])),
      Res.bind_ok, Res.map_ok]

end Verif.Pgsql
