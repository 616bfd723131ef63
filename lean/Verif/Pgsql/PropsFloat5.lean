import Verif.Pgsql.PropsFloat4
/-
C80, part 5: numeric[], what is not kept, geometric types, examples.
-/
namespace Verif.Pgsql

open Verif Verif.PgServer

/-! ### What is not kept -/

/-- 0.1 as a float32 and as a float64, 2^1000, and the least float64. -/
def tenth32 : Nat := round single 1 10
@[inherit_doc tenth32] def tenth64 : Nat := round double 1 10
@[inherit_doc tenth32] def huge : Nat := 2 ^ 2074
@[inherit_doc tenth32] def tiny : Nat := 1

/-- **C80** A float64 that is no float32 number is stored in a float4[] as another number. -/
theorem C80_not_float4_in : (Fl.fin false tenth64).In double ∧
    float4FromFloat64 (some [.fin false tenth64]) = some b!"{0.1}" ∧
    FloatReads single b!"0.1" (.fin false tenth32) ∧ tenth32 ≠ tenth64 := by
  refine ⟨⟨round_fits double double_ok 1 10 (by omega), by decide +kernel⟩, by decide +kernel, ?_, by decide +kernel⟩
  exact Or.inr (Or.inr (Or.inr ⟨false, 1, 10, tenth32, by decide +kernel, rfl,
    round_nearest single single_ok 1 10 (by omega), by decide +kernel, fun _ => by decide +kernel⟩))

/-- **C80** The server refuses float64 numbers that are too large or too small for a float4[]. -/
theorem C80_not_float4_range :
    FloatRange single (fmtFloat double (.fin false huge)) ∧
    FloatRange single (fmtFloat double (.fin false tiny)) := by
  constructor
  · exact ⟨_, _, _, _, fmt_dec double false huge, round_nearest single single_ok _ _ (Nat.pow_pos (by omega)),
      Or.inl (by decide +kernel)⟩
  · exact ⟨_, _, _, _, fmt_dec double false tiny, round_nearest single single_ok _ _ (Nat.pow_pos (by omega)),
      Or.inr (by decide +kernel)⟩

/-- **C80** A number that is stored exactly in a float4[] is not scanned into a []float64 as that number: the
server writes as many digits as tell it from other float4 numbers. -/
theorem C80_not_float4_scan : (Fl.fin false tenth32).In single ∧
    FloatReads single (fmtFloat double (.fin false tenth32)) (.fin false tenth32) ∧
    FloatReads single b!"0.1" (.fin false tenth32) ∧
    float4ToFloat64 none (some b!"{0.1}") = .ok (some [.fin false tenth64]) ∧ tenth32 ≠ tenth64 := by
  have hin : (Fl.fin false tenth32).In single :=
    ⟨round_fits single single_ok 1 10 (by omega), by decide +kernel⟩
  exact ⟨hin, C80_float4_float64_in _ hin, C80_not_float4_in.2.2.1, by decide +kernel, by decide +kernel⟩

/-- **C80** A float8[] that holds a number too large for a float32 is an error for a []float32. -/
theorem C80_not_float8_scan : FloatReads double (fmtFloat double (.fin false huge)) (.fin false huge) ∧
    float8ToFloat32 none (float8FromFloat64 (some [.fin false huge])) = .err .range := by
  refine ⟨C80_server_in double double_ok _ ⟨⟨1, 2074, by rw [Nat.one_mul, huge], by decide, by decide⟩, ?_⟩,
    by decide +kernel⟩
  rw [huge, FFmt.limit]
  exact Nat.pow_lt_pow_right (by omega) (by decide)

/-! ### numeric -/

theorem notE_num (neg : Bool) (n k : Nat) : ((if neg then ['-'] else []) ++ numMag n k).all notE = true := by
  have hd : ∀ c ∈ numMag n k, notE c = true := by
    have hp := numMag_parts n k
    rcases hp.text with ⟨e, -⟩ | e
    · rw [e]
      intro c hc
      rw [List.append_nil] at hc
      exact (digit_notE c (hp.dig c (by simp [hc]))).1
    · rw [e]
      intro c hc
      simp only [List.append_nil, List.mem_append, List.mem_cons] at hc
      rcases hc with hc | rfl | hc
      · exact (digit_notE c (hp.dig c (by simp [hc]))).1
      · decide
      · exact (digit_notE c (hp.dig c (by simp [hc]))).1
  rw [List.all_append, List.all_eq_true.mpr hd]
  cases neg <;> decide

/-- **C80** A number is written for a numeric[] as a decimal to which it is the nearest number of its size. -/
theorem C80_numeric_in (f : FFmt) (hp : 2 ≤ f.prec) (neg : Bool) (x : Nat) (hx : f.Fits x) :
    ∃ n k, NumericReads (fmtFloat f (.fin neg x)) (.dec neg n k) ∧ f.Nearest n (10 ^ k) x := by
  refine ⟨_, _, ⟨fmt_dec f neg x, ?_⟩, ?_⟩
  · rw [fmtFloat, plainText_eq]; exact notE_num _ _ _
  · rw [nearest_iff f hp _ _ _ (Nat.pow_pos (by omega)), round_text, magDigits_round f hp x hx]

/-- **C80** A numeric is scanned as the number nearest to it, or is an error if that is too large. -/
theorem C80_numeric_out (f : FFmt) (hp : 2 ≤ f.prec) (neg : Bool) (n k x : Nat) (h : f.Nearest n (10 ^ k) x) :
    parseFl f (numericOut (.dec neg n k)) =
      if x < f.limit then .ok (.fin (neg && decide (n ≠ 0)) x) else .err .range := by
  have e := (nearest_iff f hp n (10 ^ k) x (Nat.pow_pos (by omega))).mp h
  have hd := decIn_num (neg && decide (n ≠ 0)) n k
  have ho : numericOut (.dec neg n k) = (if (neg && decide (n ≠ 0)) then ['-'] else []) ++ numMag n k := by
    rw [numericOut]
    cases neg <;> by_cases hn : n = 0 <;> simp [hn]
  rw [ho, parseFl_dec f _ _ _ _ hd, ← e]

/-- **C80** Numbers other than negative zero, and NaN, are scanned as they were after the server stored them in
a numeric[]. -/
theorem C80_numeric (f : FFmt) (hp : 2 ≤ f.prec) (v : Fl) (hv : v.In f) (hi : ∀ b, v ≠ .inf b)
    (h0 : v ≠ .fin true 0) :
    ∃ w, NumericReads (fmtFloat f v) w ∧ parseFl f (numericOut w) = .ok v := by
  match v, hv with
  | .inf b, _ => exact absurd rfl (hi b)
  | .nan, _ => exact ⟨.nan, show fold b!"NaN" = _ by decide, C80_parse f hp _ _ (Or.inl ⟨by decide, rfl⟩)⟩
  | .fin neg x, ⟨hx, hl⟩ =>
    obtain ⟨n, k, h1, h2⟩ := C80_numeric_in f hp neg x hx
    refine ⟨_, h1, ?_⟩
    rw [C80_numeric_out f hp neg n k x h2, if_pos hl]
    cases neg with
    | false => rfl
    | true =>
      have hn : n ≠ 0 := by
        rintro rfl
        have e := (nearest_iff f hp 0 (10 ^ k) x (Nat.pow_pos (by omega))).mp h2
        rw [round_exact f hp 0 (10 ^ k) 0 (Nat.pow_pos (by omega)) (by simp) (fits_zero f)] at e
        exact h0 (by rw [e])
      simp [hn]

/-- **C80** Scanning the server's numeric[] into []float32 or []float64: the nearest numbers; NULL is an error. -/
theorem C80_numeric_scan (f : FFmt) (hp : 2 ≤ f.prec) (xs : List (Option Num)) (d : Option (List Fl))
    (hn : ∀ neg n k, some (Num.dec neg n k) ∈ xs → ∃ x, f.Nearest n (10 ^ k) x ∧ x < f.limit) :
    (none ∈ xs → floatsScan f d (some (arrayOut (xs.map (·.map numericOut)))) = .err .syntax) ∧
    (none ∉ xs → ∃ vs : List Fl, floatsScan f d (some (arrayOut (xs.map (·.map numericOut)))) = .ok (some vs) ∧
      vs.length = xs.length ∧ ∀ (i : Nat) neg n k, xs[i]? = some (some (Num.dec neg n k)) →
        ∃ x, vs[i]? = some (Fl.fin (neg && decide (n ≠ 0)) x) ∧ f.Nearest n (10 ^ k) x) := by
  let g : Num → Fl
    | .nan => .nan
    | .dec neg n k => .fin (neg && decide (n ≠ 0)) (round f n (10 ^ k))
  have hparse : ∀ w, some w ∈ xs → parseFl f (numericOut w) = .ok (g w) := by
    intro w hw
    match w, hw with
    | .nan, _ => exact C80_parse f hp _ _ (Or.inl ⟨show fold b!"NaN" = _ by decide, rfl⟩)
    | .dec neg n k, hw =>
      obtain ⟨x, h1, h2⟩ := hn neg n k hw
      rw [C80_numeric_out f hp neg n k x h1, if_pos h2]
      have e := (nearest_iff f hp n (10 ^ k) x (Nat.pow_pos (by omega))).mp h1
      rw [e]
  have hchars : ∀ w : Num, (∀ c ∈ numericOut w, floatChar c = true) ∧ numericOut w ≠ [] ∧
      isNull (numericOut w) = false := by
    intro w
    match w with
    | .nan => exact ⟨show ∀ c ∈ b!"NaN", floatChar c = true by decide, show b!"NaN" ≠ [] by decide,
        show isNull b!"NaN" = false by decide⟩
    | .dec neg n k =>
      have hd := decIn_num (neg && decide (n ≠ 0)) n k
      have ho : numericOut (.dec neg n k) = (if (neg && decide (n ≠ 0)) then ['-'] else []) ++ numMag n k := by
        rw [numericOut]
        cases neg <;> by_cases hn : n = 0 <;> simp [hn]
      obtain ⟨h2, c, r, e, -, h4⟩ := decIn_chars _ _ _ _ hd
      rw [ho]
      refine ⟨h2, ?_, ?_⟩
      · rw [e]; simp
      · rw [e]; exact isNull_first _ _ h4
  have hs := scan_ok (α := Num) f (xs.map (·.map fun w => (numericOut w, w))) (fun p => g p.2) d
    (by
      intro t w hx
      obtain ⟨o, ho, e⟩ := List.mem_map.mp hx
      obtain ⟨w', rfl, e'⟩ := Option.map_eq_some_iff.mp e
      obtain ⟨rfl, rfl⟩ := Prod.mk.inj e'
      exact hchars w')
    (by
      intro t w hx
      obtain ⟨o, ho, e⟩ := List.mem_map.mp hx
      obtain ⟨w', rfl, e'⟩ := Option.map_eq_some_iff.mp e
      obtain ⟨rfl, rfl⟩ := Prod.mk.inj e'
      exact hparse w' ho)
  have hout : Elems.out (xs.map (·.map fun w => (numericOut w, w))) = arrayOut (xs.map (·.map numericOut)) := by
    rw [Elems.out, List.map_map]
    congr 2
    funext o
    cases o <;> rfl
  have hmem : (none : Option (Bytes × Num)) ∈ xs.map (·.map fun w => (numericOut w, w)) ↔ none ∈ xs := by
    rw [List.mem_map]
    constructor
    · rintro ⟨o, ho, e⟩
      cases o with
      | none => exact ho
      | some w => cases e
    · intro h; exact ⟨none, h, rfl⟩
  rw [hout, hmem] at hs
  refine ⟨hs.2, fun h => ⟨_, hs.1 h, ?_⟩⟩
  have hall : ∀ ys : List (Option Num), none ∉ ys →
      ((ys.map (·.map fun w => (numericOut w, w))).filterMap id).map (fun p => g p.2) =
        ys.map fun o => g (o.getD .nan) := by
    intro ys
    induction ys with
    | nil => intro _; rfl
    | cons o ys ih =>
      intro hy
      cases o with
      | none => exact absurd (by simp) hy
      | some w =>
        have := ih fun hh => hy (by simp [hh])
        simp only [List.map_cons, Option.getD_some]
        rw [← this]
        rfl
  rw [hall xs h]
  refine ⟨by simp, fun i neg n k hi => ⟨round f n (10 ^ k), ?_, round_nearest f hp n _ (Nat.pow_pos (by omega))⟩⟩
  rw [List.getElem?_map, hi]
  rfl

/-- **C80** Negative zero comes back from a numeric[] as zero. -/
theorem C80_not_numeric_zero : NumericReads (fmtFloat double (.fin true 0)) (.dec true 0 0) ∧
    numericOut (.dec true 0 0) = b!"0" ∧
    numericToFloat64 none (some b!"{0}") = .ok (some [.fin false 0]) := by
  refine ⟨⟨by decide +kernel, by decide +kernel⟩, by decide +kernel, by decide +kernel⟩

/-- **C80** Infinities are not read as numbers of a numeric[] (PostgreSQL before version 14, which have no
infinities). -/
theorem C80_not_numeric_inf (f : FFmt) (b : Bool) (w : Num) : ¬ NumericReads (fmtFloat f (.inf b)) w := by
  intro h
  cases w with
  | nan =>
    cases b
    · exact absurd h (show ¬ fold b!"+Inf" = b!"nan" by decide)
    · exact absurd h (show ¬ fold b!"-Inf" = b!"nan" by decide)
  | dec neg n k =>
    have h1 := h.1
    have e : decIn b!"+Inf" = none ∧ decIn b!"-Inf" = none := by decide
    cases b
    · rw [show fmtFloat f (.inf false) = b!"+Inf" from rfl, e.1] at h1; cases h1
    · rw [show fmtFloat f (.inf true) = b!"-Inf" from rfl, e.2] at h1; cases h1

/-! ### nil and empty slices -/

/-- **C80** A nil slice is NULL and NULL a nil slice; an empty slice is an empty array and the other way round. -/
theorem C80_null (d : Option (List Fl)) :
    (∀ value ∈ [float4FromFloat32, float4FromFloat64, float8FromFloat32, float8FromFloat64, numericFromFloat32,
        numericFromFloat64], value none = none ∧ value (some []) = some b!"{}") ∧
    (∀ scan ∈ [float4ToFloat32, float4ToFloat64, float8ToFloat32, float8ToFloat64, numericToFloat32,
        numericToFloat64], scan d none = .ok none ∧ scan d (some b!"{}") = .ok (some [])) := by
  have h1 : ∀ f : FFmt, arrValue (fmtFloat f) none = none ∧ arrValue (fmtFloat f) (some []) = some b!"{}" :=
    fun f => ⟨rfl, rfl⟩
  have h2 : ∀ f : FFmt, floatsScan f d none = .ok none ∧ floatsScan f d (some b!"{}") = .ok (some []) :=
    fun f => ⟨rfl, rfl⟩
  constructor
  · intro value hv
    simp only [List.mem_cons, List.not_mem_nil, or_false] at hv
    rcases hv with rfl | rfl | rfl | rfl | rfl | rfl
    · exact h1 single
    · exact h1 double
    · exact h1 double
    · exact h1 double
    · exact h1 single
    · exact h1 double
  · intro scan hv
    simp only [List.mem_cons, List.not_mem_nil, or_false] at hv
    rcases hv with rfl | rfl | rfl | rfl | rfl | rfl
    · exact h2 single
    · exact h2 double
    · exact h2 single
    · exact h2 double
    · exact h2 single
    · exact h2 double

/-! ### Geometric types -/

/-- The float64 values. -/
abbrev F64 := { v : Fl // v.In double }

/-- `strconv.AppendFloat(_, x, 'f', -1, 64)` and `strconv.ParseFloat(_, 64)`, the codec of the coordinates of
the geometric types. -/
def floatCodec : NumCodec F64 where
  fmt v := fmtFloat double v.1
  parse s := match parseFl double s with
    | .ok (.fin neg x) =>
      if h : x % 2 ^ last double x = 0 ∧ x < double.limit then
        .ok ⟨.fin neg x, (fits_iff double x (by decide)).mpr (Nat.dvd_of_mod_eq_zero h.1), h.2⟩
      else .err .range
    | .ok .nan => .ok ⟨.nan, trivial⟩
    | .ok (.inf b) => .ok ⟨.inf b, trivial⟩
    | .err e => .err e
    | .panic => .panic

/-- **C80** What C24 assumes about the text of coordinates is true of float64. -/
theorem C80_geo : floatCodec.OK where
  back := by
    rintro ⟨v, hv⟩
    have h := C80_parse double double_ok _ v (C80_server_in double double_ok v hv)
    match v, hv with
    | .nan, _ => simp only [floatCodec, h]
    | .inf b, _ => simp only [floatCodec, h]
    | .fin neg x, ⟨hx, hl⟩ =>
      have hd := Nat.mod_eq_zero_of_dvd ((fits_iff double x (by decide)).mp hx)
      simp only [floatCodec, h, hd, hl, and_self, dite_true]
  ne v := (fmt_chars double v.1).2.1
  free v c hc hm := by
    have hf := (fmt_chars double v.1).1 c hc
    have : ∀ c ∈ b!",()[]{}\";\\", floatChar c = false := by decide
    rw [this c hm] at hf
    cases hf

/-! ### Examples -/

/-- **C80** Examples. -/
theorem C80_example :
    float4FromFloat32 (some [.fin false tenth32, .fin true tenth32, .nan, .inf false, .inf true, .fin true 0]) =
      some b!"{0.1,-0.1,NaN,+Inf,-Inf,-0}" ∧
    float8FromFloat32 (some [.fin false tenth32]) = some b!"{0.10000000149011612}" ∧
    float8FromFloat64 (some [.fin false tenth64, .fin true (3 * 2 ^ 1073), .fin false (2 ^ 1134)]) =
      some b!"{0.1,-1.5,1152921504606847000}" ∧
    float8ToFloat64 none (some b!"{1e+20,-1.5e-07,Infinity,-Infinity,NaN,-0}") =
      .ok (some [.fin false (round double (10 ^ 20) 1), .fin true (round double 15 (10 ^ 8)), .inf false, .inf true,
        .nan, .fin true 0]) ∧
    float4ToFloat32 none (some b!"{3.4028235e+38}") = .ok (some [.fin false ((2 ^ 24 - 1) * 2 ^ 1178)]) ∧
    float4ToFloat32 none (some b!"{3.4028236e+38}") = .err .range ∧
    float4ToFloat32 none (some b!"{1e39}") = .err .range ∧
    float4ToFloat32 none (some b!"{0.1,NULL}") = .err .syntax ∧
    float4ToFloat32 none (some b!"{1e}") = .err .syntax ∧
    float4ToFloat32 none (some b!"{1.2.3}") = .err .syntax ∧
    float8ToFloat64 none (some b!"{}") = .ok (some []) ∧
    float8ToFloat64 none (some b!"{.5,5.,+1E1}") = .ok (some [.fin false (2 ^ 1073), .fin false (5 * 2 ^ 1074),
      .fin false (10 * 2 ^ 1074)]) := by
  decide +kernel

/-- Texts of some numbers. -/
theorem C80_texts : fmtFloat double (.fin false (round double 1 10)) = b!"0.1" ∧
    fmtFloat single (.fin true (round single 1 10)) = b!"-0.1" ∧
    fmtFloat double (.fin false (round single 1 10)) = b!"0.10000000149011612" ∧
    fmtFloat double (.fin false 0) = b!"0" ∧
    fmtFloat double (.fin false 1) =
      b!"0." ++ List.replicate 323 '0' ++ b!"5" ∧
    fmtFloat double (.fin false (2 ^ 1134)) = b!"1152921504606847000" ∧
    fmtFloat double (.fin false (3 * 2 ^ 1073)) = b!"1.5" := by
  decide +kernel

end Verif.Pgsql
