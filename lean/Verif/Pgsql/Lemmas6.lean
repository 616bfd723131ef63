import Verif.Pgsql.Lemmas5
import Verif.Pgsql.Ints
import Verif.Pgsql.SpecInt
/-
Lemmas about the integer codecs.
-/
namespace Verif.Pgsql

open Verif Verif.PgServer

/-! ### Decimal text -/

theorem digitVal_of_isDig (c : Char) (h : isDig 10 c = true) :
    digitVal c = some (c.toNat - '0'.toNat) := by
  have h0 : ('0' : Char).toNat = 48 := rfl
  have h9 : ('9' : Char).toNat = 57 := rfl
  simp only [isDig, Bool.and_eq_true, decide_eq_true_eq, h0] at h
  rw [digitVal, if_pos]
  omega

theorem digitVal_none (c : Char) (h : isDig 10 c = false) : digitVal c = none := by
  have h0 : ('0' : Char).toNat = 48 := rfl
  have h9 : ('9' : Char).toNat = 57 := rfl
  simp only [isDig, Bool.and_eq_false_iff, decide_eq_false_iff_not, h0] at h
  rw [digitVal, if_neg]
  omega

theorem natIn_eq (s : Bytes) (acc : Nat) :
    natIn acc s = if s.all (isDig 10) then some (Nat.ofDigitChars 10 s acc) else none := by
  induction s generalizing acc with
  | nil => simp [natIn]
  | cons c r ih =>
    cases h : isDig 10 c with
    | true =>
      simp only [natIn, digitVal_of_isDig c h, ih, List.all_cons, h, Bool.true_and,
        Nat.ofDigitChars_cons]
      rw [Nat.mul_comm]
    | false => simp [natIn, digitVal_none c h, h]

theorem parseNat_eq (s : Bytes) : parseNat 10 s = digitsIn s := by
  rw [parseNat, digitsIn, natIn_eq]

/-- `ParseInt` accepts exactly the decimal numbers in range. -/
theorem parseInt_eq (bits : Nat) (s : Bytes) : parseInt 10 bits s =
    match intIn s with
    | none => .err .syntax
    | some v => if InRange bits v then .ok v else .err .range := by
  have hp : ((2 ^ (bits - 1) : Nat) : Int) = (2 : Int) ^ (bits - 1) := by simp
  have hpos : 0 < 2 ^ (bits - 1) := Nat.two_pow_pos _
  cases s with
  | nil => rfl
  | cons c r =>
    by_cases hm : c = '-'
    · subst hm
      simp only [parseInt, List.head?_cons, true_or, if_true, List.tail_cons, parseNat_eq, intIn]
      cases digitsIn r with
      | none => rfl
      | some n =>
        simp only [Option.map_some]
        by_cases h : n ≤ 2 ^ (bits - 1)
        · rw [if_pos h, if_pos]; unfold InRange; omega
        · rw [if_neg h, if_neg]; unfold InRange; omega
    · by_cases hq : c = '+'
      · subst hq
        simp only [parseInt, List.head?_cons, or_true, if_true, List.tail_cons, parseNat_eq, intIn,
          Option.some.injEq, hm, if_false]
        cases digitsIn r with
        | none => rfl
        | some n =>
          simp only [Option.map_some]
          by_cases h : n < 2 ^ (bits - 1)
          · rw [if_pos h, if_pos]; unfold InRange; omega
          · rw [if_neg h, if_neg]; unfold InRange; omega
      · simp only [parseInt, List.head?_cons, Option.some.injEq, hm, hq, or_self, if_false,
          parseNat_eq, intIn]
        cases digitsIn (c :: r) with
        | none => rfl
        | some n =>
          simp only [Option.map_some]
          by_cases h : n < 2 ^ (bits - 1)
          · rw [if_pos h, if_pos]; unfold InRange; omega
          · rw [if_neg h, if_neg]; unfold InRange; omega

theorem digitsIn_sign (c : Char) (r : Bytes) (h : isDig 10 c = false) : digitsIn (c :: r) = none := by
  simp [digitsIn, natIn, digitVal_none c h]

/-- What `ParseUint` accepts is the decimal number. -/
theorem parseUint_ok (bits : Nat) (s : Bytes) (n : Nat) (h : parseUint 10 bits s = .ok n) :
    intIn s = some (n : Int) ∧ n < 2 ^ bits := by
  rw [parseUint, parseNat_eq] at h
  cases s with
  | nil => simp [digitsIn] at h
  | cons c r =>
    cases hd : digitsIn (c :: r) with
    | none => rw [hd] at h; cases h
    | some m =>
      rw [hd] at h
      simp only at h
      split at h
      · cases h
        refine ⟨?_, by assumption⟩
        have hm : c ≠ '-' := by
          rintro rfl; rw [digitsIn_sign _ _ (isDig_minus 10)] at hd; cases hd
        have hq : c ≠ '+' := by
          rintro rfl; rw [digitsIn_sign _ _ (isDig_plus 10)] at hd; cases hd
        rw [intIn, if_neg hm, if_neg hq, hd]; rfl
      · cases h

theorem intIn_fmtInt (v : Int) : intIn (fmtInt 10 v) = some v := by
  have h := parseInt_eq (v.natAbs + 2) (fmtInt 10 v)
  have hr : InRange (v.natAbs + 2) v := by
    have h2 : v.natAbs < 2 ^ (v.natAbs + 1) := by
      have := Nat.lt_two_pow_self (n := v.natAbs + 1); omega
    have hp : ((2 ^ (v.natAbs + 1) : Nat) : Int) = (2 : Int) ^ (v.natAbs + 1) := by simp
    unfold InRange
    have : v.natAbs + 2 - 1 = v.natAbs + 1 := by omega
    rw [this, ← hp]
    omega
  rw [parseInt_fmtInt 10 _ v (by decide) (by decide) hr] at h
  cases hi : intIn (fmtInt 10 v) with
  | none => rw [hi] at h; cases h
  | some w =>
    rw [hi] at h
    simp only at h
    split at h
    · cases h; rfl
    · cases h

theorem fmtInt_eq (v : Int) : fmtInt 10 v = intOut v := by
  cases v with
  | ofNat n =>
    have : ¬ (Int.ofNat n < 0) := by simp
    rw [fmtInt, if_neg this]
    simp [intOut, toString, Int.repr, Nat.repr]
  | negSucc n =>
    rw [fmtInt, if_pos (Int.negSucc_lt_zero n)]
    simp [intOut, toString, Int.repr, Nat.repr]

theorem fmtInt_ne_nil (v : Int) : fmtInt 10 v ≠ [] := by
  unfold fmtInt; split <;> simp [Nat.toDigits_ne_nil]

theorem fmtInt_free (v : Int) (c : Char) (h : isDig 10 c = false) (hm : c ≠ '-') :
    c ∉ fmtInt 10 v := not_mem_fmtInt 10 v (by decide) (by decide) c h hm

theorem fmtInt_chars (v : Int) (c : Char) (h : c ∈ fmtInt 10 v) : isDig 10 c = true ∨ c = '-' := by
  by_cases hm : c = '-'
  · exact .inr hm
  · left
    cases hd : isDig 10 c with
    | true => rfl
    | false => exact absurd h (fmtInt_free v c hd hm)

/-! ### The elements of the scanners -/

/-- The integers of a Go type. -/
def GoInt.lo (t : GoInt) : Int := if t.signed then -(2 ^ (t.bits - 1)) else 0
def GoInt.hi (t : GoInt) : Int := if t.signed then 2 ^ (t.bits - 1) - 1 else 2 ^ t.bits - 1
def GoInt.Holds (t : GoInt) (v : Int) : Prop := t.lo ≤ v ∧ v ≤ t.hi

/-- The integers of a destination; floats have no limit. -/
def GoNum.Holds : GoNum → Int → Prop
  | .int t, v => t.Holds v
  | _, _ => True

/-- The integers of a PostgreSQL type; numeric has no limit. -/
def PgInt.lim : PgInt → Option (Int × Int)
  | .int2 => some (-(2 ^ 15), 2 ^ 15 - 1)
  | .int4 => some (-(2 ^ 31), 2 ^ 31 - 1)
  | .int8 => some (-(2 ^ 63), 2 ^ 63 - 1)
  | .numeric => none

def PgInt.Holds (p : PgInt) (v : Int) : Prop :=
  match p.lim with
  | some (a, b) => a ≤ v ∧ v ≤ b
  | none => True

/-- The integers the parse function lets through. -/
def IntScan.lo (e : IntScan) : Int := if e.signed then -(2 ^ (e.bits - 1)) else 0
def IntScan.hi (e : IntScan) : Int := if e.signed then 2 ^ (e.bits - 1) - 1 else 2 ^ e.bits - 1

instance (t : GoInt) (v : Int) : Decidable (t.Holds v) := by unfold GoInt.Holds; infer_instance
instance (t : GoNum) (v : Int) : Decidable (t.Holds v) := by
  cases t <;> unfold GoNum.Holds <;> infer_instance
instance (p : PgInt) (v : Int) : Decidable (p.Holds v) := by
  cases p <;> unfold PgInt.Holds PgInt.lim <;> infer_instance

theorem conv_holds (t : GoInt) (v : Int) (h : t.Holds v) : t.conv v = v := by
  cases t <;> simp only [GoInt.Holds, GoInt.lo, GoInt.hi, GoInt.conv, GoInt.signed, GoInt.bits,
    if_true, if_false, Bool.false_eq_true] at h ⊢ <;> omega

theorem conv_mem (t : GoInt) (v : Int) : t.Holds (t.conv v) := by
  cases t <;> simp only [GoInt.Holds, GoInt.lo, GoInt.hi, GoInt.conv, GoInt.signed, GoInt.bits,
    if_true, if_false, Bool.false_eq_true] <;> omega

theorem num_conv_holds (t : GoNum) (v : Int) (h : t.Holds v) : t.conv v = v := by
  cases t with
  | int t => exact conv_holds t v h
  | _ => rfl

theorem elem_fmtInt (e : IntScan) (v : Int) (h : e.lo ≤ v ∧ v ≤ e.hi) :
    e.elem (fmtInt 10 v) = .ok (e.dest.conv v) := by
  unfold IntScan.lo IntScan.hi at h
  unfold IntScan.elem
  cases hs : e.signed with
  | true =>
    rw [hs] at h
    simp only [if_true] at h ⊢
    rw [parseInt_fmtInt 10 _ v (by decide) (by decide) ⟨by omega, by omega⟩]
    rfl
  | false =>
    rw [hs] at h
    simp only [Bool.false_eq_true, if_false] at h ⊢
    have hp : ((2 ^ e.bits : Nat) : Int) = (2 : Int) ^ e.bits := by simp
    rw [fmtInt, if_neg (by omega), parseUint_toDigits 10 _ _ (by decide) (by decide),
      if_pos (by omega)]
    simp only [Res.map_ok]
    congr 2
    omega

/-- An element that is accepted is a decimal number within the limits of the parse function, and is
stored converted to the destination. -/
theorem elem_ok (e : IntScan) (s : Bytes) (w : Int) (h : e.elem s = .ok w) :
    ∃ v, intIn s = some v ∧ (e.lo ≤ v ∧ v ≤ e.hi) ∧ w = e.dest.conv v := by
  unfold IntScan.lo IntScan.hi
  unfold IntScan.elem at h
  cases hs : e.signed with
  | true =>
    rw [hs, if_pos rfl, parseInt_eq] at h
    simp only [if_true]
    cases hi : intIn s with
    | none => rw [hi] at h; cases h
    | some v =>
      rw [hi] at h
      simp only at h
      by_cases hr : InRange e.bits v
      · rw [if_pos hr] at h
        cases h
        unfold InRange at hr
        exact ⟨v, rfl, ⟨by omega, by omega⟩, rfl⟩
      · rw [if_neg hr] at h; cases h
  | false =>
    rw [hs] at h
    simp only [Bool.false_eq_true, if_false] at h ⊢
    cases hu : parseUint 10 e.bits s with
    | ok n =>
      rw [hu] at h
      cases h
      obtain ⟨h1, h2⟩ := parseUint_ok _ _ _ hu
      have hp : ((2 ^ e.bits : Nat) : Int) = (2 : Int) ^ e.bits := by simp
      exact ⟨n, h1, ⟨by omega, by omega⟩, rfl⟩
    | err _ => rw [hu] at h; cases h
    | panic => rw [hu] at h; cases h

theorem elem_no_panic (e : IntScan) (s : Bytes) : e.elem s ≠ .panic := by
  unfold IntScan.elem
  split
  · rw [parseInt_eq]
    cases intIn s with
    | none => simp
    | some v =>
      simp only
      split <;> simp
  · rw [parseUint]
    cases parseNat 10 s with
    | none => simp
    | some v =>
      simp only
      split <;> simp

/-! ### Facts about the table -/

/-- Everything the parse function lets through fits the destination. -/
def IntScan.fits (e : IntScan) : Bool :=
  match e.dest with
  | .int t => decide (t.lo ≤ e.lo) && decide (e.hi ≤ t.hi)
  | _ => true

/-- Everything that both the PostgreSQL type and the destination hold is let through. -/
def IntScan.complete (e : IntScan) : Bool :=
  match e.pg.lim, e.dest with
  | some (a, b), .int t => decide (e.lo ≤ max a t.lo) && decide (min b t.hi ≤ e.hi)
  | some (a, b), _ => decide (e.lo ≤ a) && decide (b ≤ e.hi)
  | none, .int t => decide (e.lo ≤ t.lo) && decide (t.hi ≤ e.hi)
  | none, _ => false

theorem fits_holds (e : IntScan) (h : e.fits = true) (v : Int) (hv : e.lo ≤ v ∧ v ≤ e.hi) :
    e.dest.Holds v := by
  unfold IntScan.fits at h
  unfold GoNum.Holds
  cases hd : e.dest with
  | int t =>
    simp only [hd, Bool.and_eq_true, decide_eq_true_eq] at h ⊢
    exact ⟨by omega, by omega⟩
  | _ => trivial

theorem complete_lets (e : IntScan) (h : e.complete = true) (v : Int) (h1 : e.pg.Holds v)
    (h2 : e.dest.Holds v) : e.lo ≤ v ∧ v ≤ e.hi := by
  unfold IntScan.complete at h
  unfold PgInt.Holds at h1
  unfold GoNum.Holds at h2
  cases hd : e.dest <;> rcases hl : e.pg.lim with _ | ⟨a, b⟩ <;>
    simp only [hd, hl, Bool.and_eq_true, decide_eq_true_eq, GoInt.Holds] at h h1 h2 <;>
    first | omega | exact absurd h (by decide)

/-- The scanners that store a wrapped number. -/
def wrapping : List String :=
  ["numericArrayToInt8Slice", "numericArrayToInt16Slice", "numericArrayToInt32Slice",
   "numericArrayToUint8Slice", "numericArrayToUint16Slice", "numericArrayToUint32Slice"]

/-- The scanners that turn down numbers which both sides hold. -/
def narrow : List String :=
  ["int8ArrayToUintSlice", "int8RangeArrayToFloat32Array2Slice", "numRangeToFloat32Array2",
   "numRangeToFloat64Array2", "numRangeArrayToFloat32Array2Slice", "numRangeArrayToFloat64Array2Slice"]

theorem table_fits : ∀ e ∈ intScans, (e.fits = false ↔ e.name ∈ wrapping) := by decide +kernel

theorem table_complete : ∀ e ∈ intScans, (e.complete = false ↔ e.name ∈ narrow) := by decide +kernel

end Verif.Pgsql
