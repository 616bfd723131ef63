import Verif.Pgsql.PropsFloat3
import Verif.Pgsql.PropsGeo
/-
C80, part 4: arrays of floats.
-/
namespace Verif.Pgsql

open Verif Verif.PgServer

/-! ### Elements -/

theorem fmt_chars (f : FFmt) (v : Fl) :
    (∀ c ∈ fmtFloat f v, floatChar c = true) ∧ fmtFloat f v ≠ [] ∧ isNull (fmtFloat f v) = false := by
  match v with
  | .nan => exact ⟨show ∀ c ∈ b!"NaN", floatChar c = true by decide, show b!"NaN" ≠ [] by decide,
      show isNull b!"NaN" = false by decide⟩
  | .inf false => exact ⟨show ∀ c ∈ b!"+Inf", floatChar c = true by decide, show b!"+Inf" ≠ [] by decide,
      show isNull b!"+Inf" = false by decide⟩
  | .inf true => exact ⟨show ∀ c ∈ b!"-Inf", floatChar c = true by decide, show b!"-Inf" ≠ [] by decide,
      show isNull b!"-Inf" = false by decide⟩
  | .fin neg x =>
    obtain ⟨h2, c, r, e, -, h4⟩ := decIn_chars _ _ _ _ (fmt_dec f neg x)
    refine ⟨h2, ?_, ?_⟩
    · rw [e]; simp
    · rw [e]; exact isNull_first _ _ h4

theorem plain_comma {t : Bytes} (h : Plain t) : ',' ∉ t := fun hc => (h _ hc).2.2.2.2.2 rfl

theorem parseFl_null (f : FFmt) : parseFl f b!"NULL" = .err .syntax := by
  have h1 : specialFloat b!"NULL" = none := by decide
  have h2 : readDec b!"NULL" = none := by decide
  rw [parseFl, h1]
  simp [h2]

theorem elemOut_plain {t : Bytes} (hp : Plain t) (h0 : t ≠ []) (hn : isNull t = false) :
    elemOut (some t) = t := by
  rw [elemOut, if_neg]
  have h1 : t.isEmpty = false := by simpa using h0
  rw [needsQuote, h1, hn, Bool.false_or, Bool.false_or, Bool.not_eq_true, List.any_eq_false]
  intro c hc
  obtain ⟨h1, h2, h3, h4, h5, h6⟩ := hp c hc
  simp [h1, h2, h3, h4, h5, h6]

theorem readsAs_fmt (f : FFmt) (v : Fl) : ReadsAs (fmtFloat f v) (some (fmtFloat f v)) := by
  obtain ⟨h1, h2, h3⟩ := fmt_chars f v
  have hp := floatChar_plain _ h1
  refine readsAs_plain _ hp h2 _ ?_
  rw [bareElem, trimEnd_plain _ hp, h3]
  rfl

/-- Elements of an array of the server: the text of each with what it stands for. -/
abbrev Elems (α : Type) := List (Option (Bytes × α))

/-- Every text stands for its value. -/
def Elems.Ok {α : Type} (P : Bytes → α → Prop) (xs : Elems α) : Prop := ∀ t v, some (t, v) ∈ xs → P t v

/-- The server's text of an array. -/
def Elems.out {α : Type} (xs : Elems α) : Bytes := arrayOut (xs.map fun x => x.map (·.1))

theorem scan_elems {α : Type} (f : FFmt) (xs : Elems α) (k : Bytes × α → SR Fl) (d : Option (List Fl))
    (hc : xs.Ok fun t _ => (∀ c ∈ t, floatChar c = true) ∧ t ≠ [] ∧ isNull t = false)
    (hk : xs.Ok fun t v => parseFl f t = k (t, v)) :
    floatsScan f d (some xs.out) =
      (mapRes (fun x : Option (Bytes × α) => match x with
        | none => .err .syntax
        | some p => k p) xs).map some := by
  have e : xs.out = '{' :: (joinWith b!"," (xs.map fun x => (x.map (·.1)).getD b!"NULL") ++ ['}']) := by
    rw [Elems.out, arrayOut, List.map_map, List.cons_append]
    congr 3
    refine List.map_congr_left fun x hx => ?_
    match x, hx with
    | none, _ => rfl
    | some (t, v), hx =>
      obtain ⟨h1, h2, h3⟩ := hc t v hx
      exact elemOut_plain (floatChar_plain _ h1) h2 h3
  rw [e, floatsScan, scanReset]
  rw [comma_scan_congr (parseFl f) _ _ xs]
  · intro x hx
    match x, hx with
    | none, _ => show ',' ∉ b!"NULL"; decide
    | some (t, v), hx => exact plain_comma (floatChar_plain _ (hc t v hx).1)
  · intro x hx
    match x, hx with
    | none, _ => show b!"NULL" ≠ []; decide
    | some (t, v), hx => exact (hc t v hx).2.1
  · intro x hx
    match x, hx with
    | none, _ => exact parseFl_null f
    | some (t, v), hx => exact hk t v hx

theorem mapRes_elems {α : Type} (g : Bytes × α → Fl) (xs : Elems α) :
    (none ∉ xs → mapRes (fun x : Option (Bytes × α) => match x with
        | none => .err .syntax
        | some p => (.ok (g p) : SR Fl)) xs = .ok ((xs.filterMap id).map g)) ∧
    (none ∈ xs → mapRes (fun x : Option (Bytes × α) => match x with
        | none => .err .syntax
        | some p => (.ok (g p) : SR Fl)) xs = .err .syntax) := by
  induction xs with
  | nil => exact ⟨fun _ => rfl, fun h => by cases h⟩
  | cons x xs ih =>
    refine ⟨fun h => ?_, fun h => ?_⟩
    · cases x with
      | none => exact absurd (by simp) h
      | some p =>
        rw [mapRes, Res.bind_ok, ih.1 fun hh => h (by simp [hh])]
        rfl
    · cases x with
      | none => rfl
      | some p =>
        rw [mapRes, Res.bind_ok, ih.2 (by simpa using h)]
        rfl

/-- Scanning an array all of whose texts can be read. -/
theorem scan_ok {α : Type} (f : FFmt) (xs : Elems α) (g : Bytes × α → Fl) (d : Option (List Fl))
    (hc : xs.Ok fun t _ => (∀ c ∈ t, floatChar c = true) ∧ t ≠ [] ∧ isNull t = false)
    (hk : xs.Ok fun t v => parseFl f t = .ok (g (t, v))) :
    (none ∉ xs → floatsScan f d (some xs.out) = .ok (some ((xs.filterMap id).map g))) ∧
    (none ∈ xs → floatsScan f d (some xs.out) = .err .syntax) := by
  have h := scan_elems f xs (fun p => .ok (g p)) d hc hk
  have hm := mapRes_elems g xs
  rw [h]
  refine ⟨fun hn => ?_, fun hn => ?_⟩
  · rw [hm.1 hn]; rfl
  · rw [hm.2 hn]; rfl

/-! ### Same size -/

/-- **C80** The server's float4[] is scanned into []float32, and its float8[] into []float64, value by value;
with a NULL in it the array is an error. -/
theorem C80_scan (xs : Elems Fl) (d : Option (List Fl)) :
    (xs.Ok (FloatReads single) →
      (none ∉ xs → float4ToFloat32 d (some xs.out) = .ok (some ((xs.filterMap id).map (·.2)))) ∧
      (none ∈ xs → float4ToFloat32 d (some xs.out) = .err .syntax)) ∧
    (xs.Ok (FloatReads double) →
      (none ∉ xs → float8ToFloat64 d (some xs.out) = .ok (some ((xs.filterMap id).map (·.2)))) ∧
      (none ∈ xs → float8ToFloat64 d (some xs.out) = .err .syntax)) := by
  constructor
  · intro h
    exact scan_ok single xs (·.2) d (fun t v hx => floatReads_chars _ _ _ (h t v hx))
      fun t v hx => C80_parse single single_ok t v (h t v hx)
  · intro h
    exact scan_ok double xs (·.2) d (fun t v hx => floatReads_chars _ _ _ (h t v hx))
      fun t v hx => C80_parse double double_ok t v (h t v hx)

theorem arr_in (f : FFmt) (vs : List Fl) :
    ∃ lit, arrValue (fmtFloat f) (some vs) = some lit ∧
      arrayIn lit = some (vs.map fun v => some (fmtFloat f v)) :=
  ⟨_, arrValue_some _ _, arrayIn_lit _ _ vs fun v _ => readsAs_fmt f v⟩

/-- **C80** The server reads the elements of a []float32 written for a float4[], and of a []float64 written for
a float8[], as the same values. -/
theorem C80_value (vs : List Fl) :
    ((∀ v ∈ vs, v.In single) → ∃ lit, float4FromFloat32 (some vs) = some lit ∧
      arrayIn lit = some (vs.map fun v => some (fmtFloat single v)) ∧
      ∀ v ∈ vs, FloatReads single (fmtFloat single v) v) ∧
    ((∀ v ∈ vs, v.In double) → ∃ lit, float8FromFloat64 (some vs) = some lit ∧
      arrayIn lit = some (vs.map fun v => some (fmtFloat double v)) ∧
      ∀ v ∈ vs, FloatReads double (fmtFloat double v) v) := by
  constructor
  · intro h
    obtain ⟨lit, h1, h2⟩ := arr_in single vs
    exact ⟨lit, h1, h2, fun v hv => C80_server_in single single_ok v (h v hv)⟩
  · intro h
    obtain ⟨lit, h1, h2⟩ := arr_in double vs
    exact ⟨lit, h1, h2, fun v hv => C80_server_in double double_ok v (h v hv)⟩

theorem arr_scan (f g : FFmt) (vs : List Fl) (d : Option (List Fl))
    (h : ∀ v ∈ vs, parseFl f (fmtFloat g v) = .ok v) :
    floatsScan f d (arrValue (fmtFloat g) (some vs)) = .ok (some vs) := by
  rw [arrValue_some, floatsScan, scanReset,
    comma_scan (parseFl f) (fmtFloat g) id vs (fun v _ => plain_comma (floatChar_plain _ (fmt_chars g v).1))
      (fun v _ => (fmt_chars g v).2.1) h]
  simp

/-- **C80** Slices are scanned as they were written. -/
theorem C80_round_trip (vs : List Fl) (d : Option (List Fl)) :
    ((∀ v ∈ vs, v.In single) → float4ToFloat32 d (float4FromFloat32 (some vs)) = .ok (some vs) ∧
      numericToFloat32 d (numericFromFloat32 (some vs)) = .ok (some vs)) ∧
    ((∀ v ∈ vs, v.In double) → float8ToFloat64 d (float8FromFloat64 (some vs)) = .ok (some vs) ∧
      float4ToFloat64 d (float4FromFloat64 (some vs)) = .ok (some vs) ∧
      numericToFloat64 d (numericFromFloat64 (some vs)) = .ok (some vs)) := by
  have h1 : (∀ v ∈ vs, v.In single) → floatsScan single d (arrValue (fmtFloat single) (some vs)) = .ok (some vs) :=
    fun h => arr_scan _ _ vs d fun v hv =>
      C80_parse single single_ok _ v (C80_server_in single single_ok v (h v hv))
  have h2 : (∀ v ∈ vs, v.In double) → floatsScan double d (arrValue (fmtFloat double) (some vs)) = .ok (some vs) :=
    fun h => arr_scan _ _ vs d fun v hv =>
      C80_parse double double_ok _ v (C80_server_in double double_ok v (h v hv))
  exact ⟨fun h => ⟨h1 h, h1 h⟩, fun h => ⟨h2 h, h2 h, h2 h⟩⟩

/-! ### Different sizes -/

theorem single_limit : single.limit < double.limit := by
  rw [FFmt.limit, FFmt.limit]
  exact Nat.pow_lt_pow_right (by omega) (by decide)

theorem in_double (v : Fl) (h : v.In single) : v.In double := by
  match v, h with
  | .nan, _ => trivial
  | .inf _, _ => trivial
  | .fin _ x, ⟨h1, h2⟩ => exact ⟨single_fits_double x h1, Nat.lt_trans h2 single_limit⟩

/-- What the server reads as a float8 that is a float32 number, it reads as the same float4. -/
theorem reads_single (t : Bytes) (v : Fl) (h : FloatReads double t v) (hv : v.In single) :
    FloatReads single t v := by
  rcases h with h | h | h | ⟨neg, n, d, x, h1, rfl, h2, -, h4⟩
  · exact Or.inl h
  · exact Or.inr (Or.inl h)
  · exact Or.inr (Or.inr (Or.inl h))
  · have hd := decIn_pos t neg n d h1
    have hx := (nearest_iff double double_ok n d x hd).mp h2
    subst hx
    refine Or.inr (Or.inr (Or.inr ⟨neg, n, d, _, h1, rfl, ?_, hv.2, h4⟩))
    rw [nearest_iff single single_ok n d _ hd, round_single n d hd hv.1]

/-- **C80** A []float32 is kept by a float8[]: the server reads every element as the same value, and every
text it writes for such a value is scanned as that value. -/
theorem C80_float8_float32 (vs : List Fl) (h : ∀ v ∈ vs, v.In single) (d : Option (List Fl)) :
    (∃ lit, float8FromFloat32 (some vs) = some lit ∧
      arrayIn lit = some (vs.map fun v => some (fmtFloat double v)) ∧
      ∀ v ∈ vs, FloatReads double (fmtFloat double v) v) ∧
    float8ToFloat32 d (float8FromFloat32 (some vs)) = .ok (some vs) ∧
    ∀ xs : Elems Fl, xs.filterMap (·.map (·.2)) = vs → none ∉ xs → xs.Ok (FloatReads double) →
      float8ToFloat32 d (some xs.out) = .ok (some vs) := by
  refine ⟨?_, ?_, ?_⟩
  · obtain ⟨lit, h1, h2⟩ := arr_in double vs
    exact ⟨lit, h1, h2, fun v hv => C80_server_in double double_ok v (in_double v (h v hv))⟩
  · exact arr_scan _ _ vs d fun v hv => C80_parse single single_ok _ v
      (reads_single _ v (C80_server_in double double_ok v (in_double v (h v hv))) (h v hv))
  · intro xs e hn hx
    have hin : xs.Ok fun _ v => v.In single := by
      intro t v hm
      apply h
      rw [← e]
      exact List.mem_filterMap.mpr ⟨_, hm, rfl⟩
    have := (scan_ok single xs (·.2) d (fun t v hm => floatReads_chars _ _ _ (hx t v hm))
      fun t v hm => C80_parse single single_ok t v (reads_single t v (hx t v hm) (hin t v hm))).1 hn
    rw [float8ToFloat32, this, ← e, List.map_filterMap]
    rfl

/-- **C80** Those elements of a []float64 that are float32 numbers are read by the server as the same float4. -/
theorem C80_float4_float64_in (v : Fl) (h : v.In single) :
    FloatReads single (fmtFloat double v) v :=
  reads_single _ v (C80_server_in double double_ok v (in_double v h)) h

/-- **C80** The server's float4[] is scanned into []float64 as the float64 numbers nearest to the decimals in the
text, without an error; that need not be the float4 number. -/
theorem C80_float4_float64 (t : Bytes) (v : Fl) (h : FloatReads single t v) :
    (∃ neg n d y, decIn t = some (neg, n, d) ∧ double.Nearest n d y ∧ y < double.limit ∧
      parseFl double t = .ok (.fin neg y)) ∨ ((∀ neg x, v ≠ .fin neg x) ∧ parseFl double t = .ok v) := by
  rcases h with h | h | h | ⟨neg, n, d, x, h1, rfl, h2, h3, h4⟩
  · right
    refine ⟨fun neg x e => ?_, C80_parse double double_ok t v (Or.inl h)⟩
    rw [h.2] at e; cases e
  · right
    refine ⟨fun neg x e => ?_, C80_parse double double_ok t v (Or.inr (Or.inl h))⟩
    obtain ⟨s, -, -, h⟩ := h; rw [h] at e; cases e
  · right
    refine ⟨fun neg x e => ?_, C80_parse double double_ok t v (Or.inr (Or.inr (Or.inl h)))⟩
    obtain ⟨s, -, -, h⟩ := h; rw [h] at e; cases e
  · left
    have hd := decIn_pos t neg n d h1
    have hx := (nearest_iff single single_ok n d x hd).mp h2
    have hu : 2 ^ 1202 = 2 ^ 128 * unit := by rw [unit, ← Nat.pow_add]
    have hfit : ∀ f : FFmt, 2 ≤ f.prec → f.low ≤ 1202 → round f (2 ^ 128 * d) d = 2 ^ 1202 := by
      intro f hp hl
      refine round_exact f hp _ _ _ hd ?_ ⟨1, 1202, by rw [Nat.one_mul], Nat.one_lt_two_pow (by omega), hl⟩
      rw [hu, Nat.mul_right_comm]
    have hlt : n ≤ 2 ^ 128 * d := by
      refine Nat.le_of_not_lt fun hlt => ?_
      have hm := round_mono single single_ok _ _ d hd (Nat.le_of_lt hlt)
      rw [hfit single single_ok (by decide), ← hx] at hm
      have : single.limit = 2 ^ 1202 := rfl
      omega
    have hm := round_mono double double_ok _ _ d hd hlt
    rw [hfit double double_ok (by decide)] at hm
    have hl : 2 ^ 1202 < double.limit := by
      rw [FFmt.limit]; exact Nat.pow_lt_pow_right (by omega) (by decide)
    have hlim : round double n d < double.limit := Nat.lt_of_le_of_lt hm hl
    refine ⟨neg, n, d, round double n d, h1, round_nearest double double_ok n d hd, hlim, ?_⟩
    rw [parseFl_dec double t neg n d h1, if_pos hlim]

/-- **C80** A decimal too large for the type is an error; one too small for the type, which the server refuses,
is scanned as zero. -/
theorem C80_range (f : FFmt) (hp : 2 ≤ f.prec) (t : Bytes) (neg : Bool) (n d x : Nat)
    (h : decIn t = some (neg, n, d)) (hx : f.Nearest n d x) :
    (f.limit ≤ x → parseFl f t = .err .range) ∧ (x = 0 → parseFl f t = .ok (.fin neg 0)) := by
  have hd := decIn_pos t neg n d h
  have e := (nearest_iff f hp n d x hd).mp hx
  rw [parseFl_dec f t neg n d h, ← e]
  refine ⟨fun h1 => if_neg (by omega), ?_⟩
  rintro rfl
  rw [if_pos]
  exact Nat.two_pow_pos _

end Verif.Pgsql
