import Verif.Pgsql.Pairs
/-
Property C100: the converters that the compatibility table pairs belong together.
-/
namespace Verif.Pgsql

open Verif Verif.PgServer Verif.Postgres

theorem sent_scan {δ : Type} (f : Option Bytes → SR δ) (o : Option Bytes) : (sent o).scan f = f o := by
  cases o <;> rfl

theorem list_map_id {α : Type} (f : α → α) (xs : List α) (h : ∀ x ∈ xs, f x = x) : xs.map f = xs := by
  conv => rhs; rw [← List.map_id xs]
  exact List.map_congr_left h

theorem bit_uints (v d : Option (List Nat)) (h : ∀ xs, v = some xs → ∀ x ∈ xs, x ≤ 1) :
    (bitFromUints v).scan (bitToUints d) = .ok v := by
  rw [C19_bit_uint]
  cases v with
  | none => rfl
  | some xs =>
    rw [Option.map_some, list_map_id]
    intro x hx
    have := h xs rfl x hx
    split <;> omega

theorem varbit_uints (v d : Option (List Nat)) (h : ∀ xs, v = some xs → ∀ x ∈ xs, x ≤ 1) :
    varbitToUint8s d (varbitFromUint8s v) = .ok v := by
  rw [C20_uint8s]
  cases v with
  | none => rfl
  | some xs =>
    rw [Option.map_some, list_map_id]
    intro x hx
    have := h xs rfl x hx
    split <;> omega

theorem varbit_arr_uints (v d : Option (List (Option (List Nat))))
    (h : ∀ xs, v = some xs → ∀ x ∈ xs, ∀ ns, x = some ns → ∀ n ∈ ns, n ≤ 1) :
    (varbitArrFromUint8s v).scan (varbitArrToUint8s d) = .ok v := by
  rw [C20_arr_uint8s]
  cases v with
  | none => rfl
  | some xs =>
    rw [Option.map_some, list_map_id]
    intro x hx
    cases x with
    | none => rfl
    | some ns =>
      rw [Option.map_some, list_map_id]
      intro n hn
      have := h xs rfl _ hx ns rfl n hn
      split <;> omega

theorem utf8_ascii (c : Char) (h : c.toNat < 128) : utf8 c = [c] := by
  have : ∀ n, n < 128 → utf8 (Char.ofNat n) = [Char.ofNat n] := by decide +kernel
  have := this c.toNat h
  rwa [Char.ofNat_toNat] at this

theorem char_string (v d : Bytes) (h : ∀ c ∈ v, c.toNat < 128 ∧ droppedChar c = false) :
    charToString d (charFromString v) = .ok v := by
  rw [C23_string v d fun c hc => (h c hc).2]
  have : v.flatMap utf8 = v := by
    clear d
    induction v with
    | nil => rfl
    | cons c cs ih =>
      rw [List.flatMap_cons, utf8_ascii c (h c (by simp)).1, ih fun x hx => h x (by simp [hx])]
      rfl
  rw [this]

theorem money_arr (vs : List Int) (d : Option (List Int))
    (h : ∀ x ∈ vs, x.natAbs < 100 * 2 ^ 46 ∧ 25 ∣ x) : moneyArrScan d (moneyArrValue (some vs)) = .ok (some vs) := by
  rw [C76_arr_partial vs d fun x hx => (h x hx).1]
  have : mapRes (fun v => moneyScan 0 (some (moneyValue v))) vs = .ok vs := by
    clear d
    induction vs with
    | nil => rfl
    | cons x xs ih =>
      rw [mapRes, C76_scan_quarters_partial x 0 (h x (by simp)).1 (h x (by simp)).2,
        Res.bind_ok, ih fun y hy => h y (by simp [hy])]
      rfl
  rw [this]
  rfl

theorem unnull (es ys : List Bytes)
    (h : (es.map fun e => if e.length = 4 ∧ e.head? = some 'N' then none else some e) = ys.map some) : es = ys := by
  induction es generalizing ys with
  | nil => cases ys with
    | nil => rfl
    | cons _ _ => cases h
  | cons e es ih =>
    cases ys with
    | nil => cases h
    | cons y ys =>
      rw [List.map_cons, List.map_cons, List.cons.injEq] at h
      have h1 := h.1
      split at h1
      · cases h1
      · cases h1
        rw [ih ys h.2]

theorem uuid_strings (v d : Option (List Bytes)) (h : ∀ xs, v = some xs → ∀ s ∈ xs, s.length = 36 ∧ ',' ∉ s) :
    (uuidArrFromTexts (v.map (·.map some))).scan (uuidArrToStrings d) = .ok v := by
  cases v with
  | none => rfl
  | some ys =>
    have hc := C22_texts (some (ys.map some)) none (by
      intro xs hx x hm s hs
      cases hx
      obtain ⟨y, hy, rfl⟩ := List.mem_map.mp hm
      cases hs
      exact h ys rfl _ hy)
    rw [Option.map_some]
    cases hw : uuidArrFromTexts (some (ys.map some)) with
    | null => rw [hw] at hc; cases hc
    | panic => rw [hw] at hc; cases hc
    | text b =>
      rw [hw, Val.scan, uuidArrToTexts, scanReset] at hc
      rw [Val.scan, uuidArrToStrings, scanReset]
      cases hp : parseCommaArray b with
      | none => rw [hp] at hc; cases hc
      | some es =>
        rw [hp] at hc
        simp only [ofParse, Res.map_ok, Res.ok.injEq, Option.some.injEq] at hc ⊢
        exact unnull es ys hc

theorem times_back (f : Form) (hf : f ∈ bareForms) (v d : Option (List Time))
    (h : ∀ ts, v = some ts → ∀ t ∈ ts, f.Fits t ∧ f.kept t = t) :
    timeArrScan f.layout d (timeArrValue f.layout v) = .ok v := by
  rw [C74_arr f hf v d fun ts e t ht => (h ts e t ht).1]
  cases v with
  | none => rfl
  | some ts => rw [Option.map_some, list_map_id _ _ fun t ht => (h ts rfl t ht).2]

theorem stamps_back (k : Stamp) (v d : Option (List Time))
    (h : ∀ ts, v = some ts → ∀ t ∈ ts, k.form.Fits t ∧ k.form.kept t = t) :
    stampArrScan k.form.layout d (stampArrValue k.form.layout v) = .ok v := by
  rw [C74_stamp_arr k v d fun ts e t ht => (h ts e t ht).1]
  cases v with
  | none => rfl
  | some ts => rw [Option.map_some, list_map_id _ _ fun t ht => (h ts rfl t ht).2]

theorem stamp_range_back (k : Stamp) (v d : Time × Time) (h : Kept k.form.kept k.form v) :
    stampRangeScan k.form.layout d (some (stampRangeValue k.form.layout v)) = .ok v := by
  rw [C74_range k v d h.1.1 h.2.1, h.1.2, h.2.2]

theorem stamp_range_trip (k : Stamp) : Codec.RoundsTrip ⟨Time × Time, fun v => Kept k.form.kept k.form v,
    fun v => .text (stampRangeValue k.form.layout v), stampRangeScan k.form.layout⟩ :=
  fun v d h => stamp_range_back k v d h

theorem stamp_ranges_back (k : Stamp) (v d : Option (List (Time × Time)))
    (h : ∀ vs, v = some vs → ∀ p ∈ vs, Kept k.form.kept k.form p) :
    stampRangeArrScan k.form.layout d (stampRangeArrValue k.form.layout v) = .ok v := by
  rw [C74_range_arr k v d fun vs e p hp => ⟨(h vs e p hp).1.1, (h vs e p hp).2.1⟩]
  cases v with
  | none => rfl
  | some vs =>
    rw [Option.map_some, list_map_id]
    intro p hp
    rw [(h vs rfl p hp).1.2, (h vs rfl p hp).2.2]

theorem date_range_back (v d : Time × Time) (h : Kept dateBack dateForm v) :
    dateRangeScan d (some (dateRangeValue v)) = .ok v := by
  rw [C74_daterange v d h.1.1 h.2.1, h.1.2, h.2.2]

theorem date_ranges_back (vs : List (Time × Time)) (d : Option (List (Time × Time)))
    (h : ∀ p ∈ vs, Kept dateBack dateForm p) : dateRangeArrScan d (dateRangeArrValue (some vs)) = .ok (some vs) := by
  rw [(C74_daterange_arr vs (fun p hp => ⟨(h p hp).1.1, (h p hp).2.1⟩) d).1, list_map_id]
  intro p hp
  rw [(h p hp).1.2, (h p hp).2.2]

/-! ### Every pair -/

theorem pairs1_ok (spare : Bytes) : ∀ p ∈ pairs1 spare, p.codec.RoundsTrip := by
  unfold pairs1
  refine List.forall_mem_cons.mpr ⟨fun v d _ => by have := (C75_char_byte v d []).1; simpa [Val.scan] using this, ?_⟩
  refine List.forall_mem_cons.mpr ⟨fun v d _ => by have := (C75_char_rune v d []).1; simpa [Val.scan] using this, ?_⟩
  refine List.forall_mem_cons.mpr ⟨fun v d h => (sent_scan _ _).trans (C23_bytes v d h), ?_⟩
  refine List.forall_mem_cons.mpr ⟨fun v d h => (sent_scan _ _).trans (C23_bytes v d h), ?_⟩
  refine List.forall_mem_cons.mpr ⟨fun v d h => (sent_scan _ _).trans (C23_bytes v d h), ?_⟩
  refine List.forall_mem_cons.mpr ⟨fun v d h => (sent_scan _ _).trans (char_string v d h), ?_⟩
  refine List.forall_mem_cons.mpr ⟨fun v d _ => by have := (C75_char_byte v d []).1; simpa [Val.scan] using this, ?_⟩
  refine List.forall_mem_cons.mpr ⟨fun v d _ => by have := (C75_char_rune v d []).1; simpa [Val.scan] using this, ?_⟩
  refine List.forall_mem_cons.mpr ⟨fun v d h => (sent_scan _ _).trans (C23_bytes v d h), ?_⟩
  refine List.forall_mem_cons.mpr ⟨fun v d h => (sent_scan _ _).trans (C23_bytes v d h), ?_⟩
  exact fun _ h => nomatch h

theorem pairs2_ok (spare : Bytes) : ∀ p ∈ pairs2 spare, p.codec.RoundsTrip := by
  unfold pairs2
  refine List.forall_mem_cons.mpr ⟨fun v d h => (sent_scan _ _).trans (C23_bytes v d h), ?_⟩
  refine List.forall_mem_cons.mpr ⟨fun v d h => (sent_scan _ _).trans (char_string v d h), ?_⟩
  refine List.forall_mem_cons.mpr ⟨fun v d _ => C19_bool v d, ?_⟩
  refine List.forall_mem_cons.mpr ⟨fun v d _ => C19_bit v d, ?_⟩
  refine List.forall_mem_cons.mpr ⟨fun v d h => bit_uints v d h, ?_⟩
  refine List.forall_mem_cons.mpr ⟨fun v d h => bit_uints v d h, ?_⟩
  refine List.forall_mem_cons.mpr ⟨fun v d h => C20_int v h d, ?_⟩
  refine List.forall_mem_cons.mpr ⟨fun v d _ => (sent_scan _ _).trans (C20_bools v d), ?_⟩
  refine List.forall_mem_cons.mpr ⟨fun v d h => (sent_scan _ _).trans (varbit_uints v d h), ?_⟩
  refine List.forall_mem_cons.mpr ⟨fun v d _ => C20_arr_bools v d, ?_⟩
  exact fun _ h => nomatch h

theorem pairs3_ok (spare : Bytes) : ∀ p ∈ pairs3 spare, p.codec.RoundsTrip := by
  unfold pairs3
  refine List.forall_mem_cons.mpr ⟨fun v d h => varbit_arr_uints v d h, ?_⟩
  refine List.forall_mem_cons.mpr ⟨(by rintro _ d ⟨xs, rfl, h⟩; exact C20_arr_strings xs h d), ?_⟩
  refine List.forall_mem_cons.mpr ⟨fun v d h => (sent_scan _ _).trans (C20_arr_ints v h d), ?_⟩
  refine List.forall_mem_cons.mpr ⟨fun v d _ => (sent_scan _ _).trans (C21_round_trip v d), ?_⟩
  refine List.forall_mem_cons.mpr ⟨fun v d _ => (sent_scan _ _).trans (C21_round_trip v d), ?_⟩
  refine List.forall_mem_cons.mpr ⟨fun v d h => C22_round_trip v h spare d, ?_⟩
  refine List.forall_mem_cons.mpr ⟨fun v d h => C22_arr v h spare d, ?_⟩
  refine List.forall_mem_cons.mpr ⟨fun v d h => C22_texts v d h, ?_⟩
  refine List.forall_mem_cons.mpr ⟨fun v d h => uuid_strings v d h, ?_⟩
  refine List.forall_mem_cons.mpr ⟨fun v d _ => (sent_scan _ _).trans (C13_strings v d), ?_⟩
  exact fun _ h => nomatch h

theorem pairs4_ok (spare : Bytes) : ∀ p ∈ pairs4 spare, p.codec.RoundsTrip := by
  unfold pairs4
  refine List.forall_mem_cons.mpr ⟨fun v d _ => (sent_scan _ _).trans (C13_bytes v d), ?_⟩
  refine List.forall_mem_cons.mpr ⟨fun v d _ => (sent_scan _ _).trans (C13_strings v d), ?_⟩
  refine List.forall_mem_cons.mpr ⟨fun v d _ => (sent_scan _ _).trans (C13_bytes v d), ?_⟩
  refine List.forall_mem_cons.mpr ⟨fun v d _ => (sent_scan _ _).trans (C75_json_round_trip v d []).1, ?_⟩
  refine List.forall_mem_cons.mpr ⟨fun v d _ => (sent_scan _ _).trans (C75_json_round_trip v d []).1, ?_⟩
  refine List.forall_mem_cons.mpr ⟨(by rintro _ d ⟨xs, rfl, h⟩; exact (C75_vector_round_trip xs d).mpr h), ?_⟩
  refine List.forall_mem_cons.mpr ⟨(by rintro _ d ⟨xs, rfl, h⟩; exact (C75_vector_round_trip xs d).mpr h), ?_⟩
  refine List.forall_mem_cons.mpr ⟨(by rintro _ d ⟨xss, rfl, h, h2⟩; exact (C75_arr_round_trip xss h d).mpr h2), ?_⟩
  refine List.forall_mem_cons.mpr ⟨(by rintro _ d ⟨xss, rfl, h, h2⟩; exact (C75_arr_round_trip xss h d).mpr h2), ?_⟩
  refine List.forall_mem_cons.mpr ⟨fun v d h => C75_query_strings_partial v d h, ?_⟩
  exact fun _ h => nomatch h

theorem pairs5_ok (spare : Bytes) : ∀ p ∈ pairs5 spare, p.codec.RoundsTrip := by
  unfold pairs5
  refine List.forall_mem_cons.mpr ⟨(by rintro _ d ⟨xs, rfl, h, h2⟩; exact (C75_query_bytes xs d h).mpr h2), ?_⟩
  refine List.forall_mem_cons.mpr ⟨fun v d h => C76_scan_quarters_partial v d h.1 h.2, ?_⟩
  refine List.forall_mem_cons.mpr ⟨(by rintro _ d ⟨vs, rfl, h⟩; exact (sent_scan _ _).trans (money_arr vs d h)), ?_⟩
  refine List.forall_mem_cons.mpr ⟨(by rintro _ d ⟨m, rfl, h⟩; exact (sent_scan _ _).trans (C78_round_trip m d h)), ?_⟩
  refine List.forall_mem_cons.mpr ⟨(by rintro _ d ⟨ms, rfl, h⟩; exact (sent_scan _ _).trans (C78_arr_round_trip ms d h)), ?_⟩
  refine List.forall_mem_cons.mpr ⟨(by rintro _ d ⟨m, rfl, h⟩; exact (sent_scan _ _).trans (C78_round_trip m d h)), ?_⟩
  refine List.forall_mem_cons.mpr ⟨(by rintro _ d ⟨ms, rfl, h⟩; exact (sent_scan _ _).trans (C78_arr_round_trip ms d h)), ?_⟩
  refine List.forall_mem_cons.mpr ⟨(by rintro _ d ⟨ip, rfl, h⟩; exact (sent_scan _ _).trans (C77_ip_exact ip d h)), ?_⟩
  refine List.forall_mem_cons.mpr ⟨(by rintro n d ⟨v, h, h2⟩; exact (sent_scan _ _).trans (C77_net_round_trip n v d h h2).2), ?_⟩
  refine List.forall_mem_cons.mpr ⟨(by rintro n d ⟨v, h, h2⟩; exact (sent_scan _ _).trans (C77_net_round_trip n v d h h2).1), ?_⟩
  exact fun _ h => nomatch h

theorem pairs6_ok (spare : Bytes) : ∀ p ∈ pairs6 spare, p.codec.RoundsTrip := by
  unfold pairs6
  refine List.forall_mem_cons.mpr ⟨(by rintro _ d ⟨ns, rfl, h⟩; exact (sent_scan _ _).trans (C77_net_arr_round_trip ns d h).2), ?_⟩
  refine List.forall_mem_cons.mpr ⟨(by rintro _ d ⟨vs, rfl, h⟩; exact (sent_scan _ _).trans (((C80_round_trip vs d).1 h).1)), ?_⟩
  refine List.forall_mem_cons.mpr ⟨(by rintro _ d ⟨vs, rfl, h⟩; exact (sent_scan _ _).trans (((C80_round_trip vs d).2 h).2.1)), ?_⟩
  refine List.forall_mem_cons.mpr ⟨(by rintro _ d ⟨vs, rfl, h⟩; exact (sent_scan _ _).trans ((C80_float8_float32 vs h d).2.1)), ?_⟩
  refine List.forall_mem_cons.mpr ⟨(by rintro _ d ⟨vs, rfl, h⟩; exact (sent_scan _ _).trans (((C80_round_trip vs d).2 h).1)), ?_⟩
  refine List.forall_mem_cons.mpr ⟨(by rintro _ d ⟨vs, rfl, h⟩; exact (sent_scan _ _).trans (((C80_round_trip vs d).1 h).2)), ?_⟩
  refine List.forall_mem_cons.mpr ⟨(by rintro _ d ⟨vs, rfl, h⟩; exact (sent_scan _ _).trans (((C80_round_trip vs d).2 h).2.2)), ?_⟩
  refine List.forall_mem_cons.mpr ⟨fun v d _ => C24_point C80_geo v d, ?_⟩
  refine List.forall_mem_cons.mpr ⟨fun v d _ => C24_lseg C80_geo v d, ?_⟩
  refine List.forall_mem_cons.mpr ⟨fun v d _ => C24_line C80_geo v d, ?_⟩
  exact fun _ h => nomatch h

theorem pairs7_ok (spare : Bytes) : ∀ p ∈ pairs7 spare, p.codec.RoundsTrip := by
  unfold pairs7
  refine List.forall_mem_cons.mpr ⟨fun v d h => (sent_scan _ _).trans (C24_path_partial C80_geo v d h), ?_⟩
  refine List.forall_mem_cons.mpr ⟨fun v d h => (sent_scan _ _).trans (C24_polygon_partial C80_geo v d h), ?_⟩
  refine List.forall_mem_cons.mpr ⟨fun v d _ => (sent_scan _ _).trans (C24_box_arr C80_geo v d), ?_⟩
  refine List.forall_mem_cons.mpr ⟨(by
      rintro (_ | vs) d h
      · exact absurd rfl h
      · exact (sent_scan _ _).trans (C24_point_arr C80_geo vs d)), ?_⟩
  refine List.forall_mem_cons.mpr ⟨(by
      rintro (_ | vs) d h
      · exact absurd rfl h
      · exact (sent_scan _ _).trans (C24_lseg_arr C80_geo vs d)), ?_⟩
  refine List.forall_mem_cons.mpr ⟨(by
      rintro (_ | vs) d h
      · exact absurd rfl h
      · exact (sent_scan _ _).trans (C24_line_arr C80_geo vs d)), ?_⟩
  refine List.forall_mem_cons.mpr ⟨fun v d h => (sent_scan _ _).trans (C24_path_arr_partial C80_geo v d h), ?_⟩
  refine List.forall_mem_cons.mpr ⟨fun v d h => (sent_scan _ _).trans (C24_polygon_arr_partial C80_geo v d h), ?_⟩
  refine List.forall_mem_cons.mpr ⟨fun v d h => (sent_scan _ _).trans (times_back _ (by decide) v d h), ?_⟩
  refine List.forall_mem_cons.mpr ⟨fun v d h => (sent_scan _ _).trans (times_back _ (by decide) v d h), ?_⟩
  exact fun _ h => nomatch h

theorem pairs8_ok (spare : Bytes) : ∀ p ∈ pairs8 spare, p.codec.RoundsTrip := by
  unfold pairs8
  refine List.forall_mem_cons.mpr ⟨fun v d h => (sent_scan _ _).trans (times_back _ (by decide) v d h), ?_⟩
  refine List.forall_mem_cons.mpr ⟨fun v d h => (sent_scan _ _).trans (stamps_back (Stamp.plain) v d h), ?_⟩
  refine List.forall_mem_cons.mpr ⟨fun v d h => (sent_scan _ _).trans (stamps_back (Stamp.zoned) v d h), ?_⟩
  refine List.forall_mem_cons.mpr ⟨stamp_range_trip (Stamp.plain), ?_⟩
  refine List.forall_mem_cons.mpr ⟨fun v d h => (sent_scan _ _).trans (stamp_ranges_back (Stamp.plain) v d h), ?_⟩
  refine List.forall_mem_cons.mpr ⟨stamp_range_trip (Stamp.zoned), ?_⟩
  refine List.forall_mem_cons.mpr ⟨fun v d h => (sent_scan _ _).trans (stamp_ranges_back (Stamp.zoned) v d h), ?_⟩
  refine List.forall_mem_cons.mpr ⟨fun v d h => date_range_back v d h, ?_⟩
  refine List.forall_mem_cons.mpr ⟨(by rintro _ d ⟨vs, rfl, h⟩; exact (sent_scan _ _).trans (date_ranges_back vs d h)), ?_⟩
  exact fun _ h => nomatch h

theorem otherPairs_ok (spare : Bytes) : ∀ p ∈ otherPairs spare, p.codec.RoundsTrip := by
  intro p hp
  simp only [otherPairs, List.mem_append] at hp
  rcases hp with ((((((hp | hp) | hp) | hp) | hp) | hp) | hp) | hp
  · exact pairs1_ok spare p hp
  · exact pairs2_ok spare p hp
  · exact pairs3_ok spare p hp
  · exact pairs4_ok spare p hp
  · exact pairs5_ok spare p hp
  · exact pairs6_ok spare p hp
  · exact pairs7_ok spare p hp
  · exact pairs8_ok spare p hp

theorem intPair_ok (e : IntScan) (he : e ∈ intScans) (hn : e.name ∉ narrow) : (intPair e).RoundsTrip := by
  have hu : e.name ≠ "int8ArrayToUintSlice" := fun h => hn (by rw [h]; decide)
  unfold intPair
  cases hs : e.shape with
  | comma => exact fun v d h => (sent_scan _ _).trans (C18_round_trip e he hu hs v d h)
  | vector => exact fun v d h => (sent_scan _ _).trans (C25_vector e he hs v d h)
  | vectorArr => exact fun v d h => (sent_scan _ _).trans (C25_arr_partial e he hs v d h)
  | range => exact fun v d h => C26_round_trip e he hn v d h.1 h.2
  | rangeArr =>
    rintro _ d ⟨vs, rfl, h⟩
    exact (sent_scan _ _).trans (C26_arr e he hn vs d h)

/-- The names of a pair. -/
def Pair.names (p : Pair) : Bytes × Bytes := (p.valuer, p.scanner)

theorem otherPairs_names (spare : Bytes) : (otherPairs spare).map Pair.names = (otherPairs []).map Pair.names := rfl

/-- The first letter in lower case: the type behind an exported function. -/
def lower1 : Bytes → Bytes
  | c :: r => c.toLower :: r
  | [] => []

/-- **C100** The pairs for integers are those of the functions whose scanners are the rows of `intScans`. -/
theorem C100_int_names : intNames.map (fun n => lower1 n.2) = intScans.map (·.name.toList) := by decide +kernel

theorem zip_narrow : ∀ p ∈ intNames.zip intScans, p.2.name ∈ narrow → p.1 ∈ narrowPairs := by decide +kernel

theorem zip_names : (intNames.zip intScans).map (·.1) = intNames := by
  rw [List.map_fst_zip]
  decide +kernel

theorem codecPairs_ok (spare : Bytes) (p : Pair) (hp : p ∈ codecPairs spare) (hn : p.names ∉ narrowPairs) :
    p.codec.RoundsTrip := by
  rcases List.mem_append.mp hp with hp | hp
  · obtain ⟨q, hq, rfl⟩ := List.mem_map.mp hp
    exact intPair_ok q.2 (List.of_mem_zip hq).2 fun h => hn (zip_narrow q hq h)
  · exact otherPairs_ok spare p hp

theorem codecOf_ok (spare v s : Bytes) (c : Codec) (h : codecOf spare v s = some c)
    (hn : (v, s) ∉ narrowPairs) : c.RoundsTrip := by
  rw [codecOf, Option.map_eq_some_iff] at h
  obtain ⟨p, hp, rfl⟩ := h
  have h1 := List.find?_some hp
  have h2 : p.valuer = v ∧ p.scanner = s := of_decide_eq_true h1
  refine codecPairs_ok spare p (List.mem_of_find?_eq_some hp) ?_
  rw [Pair.names, h2.1, h2.2]
  exact hn

theorem codecOf_some (spare v s : Bytes) (h : (v, s) ∈ intNames ++ (otherPairs []).map Pair.names) :
    ∃ c, codecOf spare v s = some c := by
  have h1 : (v, s) ∈ (codecPairs spare).map Pair.names := by
    rw [codecPairs, List.map_append, otherPairs_names, List.map_map]
    have e : (Pair.names ∘ fun p : (Bytes × Bytes) × IntScan => ⟨p.1.1, p.1.2, intPair p.2⟩) = (·.1) := rfl
    rw [e, zip_names]
    exact h
  obtain ⟨p, hp, he⟩ := List.mem_map.mp h1
  have : ((codecPairs spare).find? fun p => decide (p.valuer = v ∧ p.scanner = s)).isSome = true := by
    rw [List.find?_isSome]
    refine ⟨p, hp, ?_⟩
    rw [Pair.names, Prod.mk.injEq] at he
    simp [he.1, he.2]
  obtain ⟨q, hq⟩ := Option.isSome_iff_exists.mp this
  exact ⟨q.codec, by rw [codecOf, hq]; rfl⟩

/-- A row without both converters, or one that is left out, or one whose converters are in the list. -/
def rowOk (names : List (Bytes × Bytes)) (r : CompRow) : Bool :=
  r.entry.valuer.length == 0 || r.entry.scanner.length == 0 ||
    unpaired.contains (r.entry.valuer, r.entry.scanner) || names.contains (r.entry.valuer, r.entry.scanner)

theorem rows0 : compRows0.all (rowOk (intNames ++ (otherPairs []).map Pair.names)) = true := by decide +kernel
theorem rows1 : compRows1.all (rowOk (intNames ++ (otherPairs []).map Pair.names)) = true := by decide +kernel
theorem rows2 : compRows2.all (rowOk (intNames ++ (otherPairs []).map Pair.names)) = true := by decide +kernel
theorem rows3 : compRows3.all (rowOk (intNames ++ (otherPairs []).map Pair.names)) = true := by decide +kernel
theorem rows4 : compRows4.all (rowOk (intNames ++ (otherPairs []).map Pair.names)) = true := by decide +kernel
theorem rows5 : compRows5.all (rowOk (intNames ++ (otherPairs []).map Pair.names)) = true := by decide +kernel
theorem rows6 : compRows6.all (rowOk (intNames ++ (otherPairs []).map Pair.names)) = true := by decide +kernel
theorem rows7 : compRows7.all (rowOk (intNames ++ (otherPairs []).map Pair.names)) = true := by decide +kernel

/-- **C100** For every row of the compatibility table that names a valuer and a scanner, apart from the pairs
listed in `unpaired` and `narrowPairs`: the two belong together. The scanner reads the text that the valuer
wrote back to the value that was written, whatever the destination held before. -/
theorem C100_pairs (spare : Bytes) (r : CompRow) (hr : r ∈ compTable) (hv : r.entry.valuer.length ≠ 0)
    (hs : r.entry.scanner.length ≠ 0) (hu : (r.entry.valuer, r.entry.scanner) ∉ unpaired)
    (hn : (r.entry.valuer, r.entry.scanner) ∉ narrowPairs) :
    ∃ c, codecOf spare r.entry.valuer r.entry.scanner = some c ∧ c.RoundsTrip := by
  have h : compTable.all (rowOk (intNames ++ (otherPairs []).map Pair.names)) = true := by
    simp only [compTable, List.all_append, rows0, rows1, rows2, rows3, rows4, rows5, rows6, rows7, Bool.and_self]
  have h1 := List.all_eq_true.mp h r hr
  simp only [rowOk, Bool.or_eq_true, beq_iff_eq, List.contains_iff_mem] at h1
  rcases h1 with ((h1 | h1) | h1) | h1
  · exact absurd h1 hv
  · exact absurd h1 hs
  · exact absurd h1 hu
  · obtain ⟨c, hc⟩ := codecOf_some spare _ _ h1
    exact ⟨c, hc, codecOf_ok spare _ _ c hc hn⟩

/-- **C100** The rows that name one converter only: `BitFromBool` writes a bool that database/sql reads, and the
functions for dates and times of day read texts and times that need no valuer. -/
theorem C100_one_sided : (compTable.filter fun r =>
      (r.entry.valuer.length == 0) != (r.entry.scanner.length == 0)).map (fun r =>
        (r.entry.valuer, r.entry.scanner)) = [
    (b!"BitFromBool", []), ([], b!"DateToTime"), ([], b!"DateToString"), ([], b!"DateToByteSlice"),
    ([], b!"TimeToString"), ([], b!"TimeToByteSlice"), ([], b!"TimetzToString"), ([], b!"TimetzToByteSlice")] := by
  decide +kernel

/-- **C100** does not hold for a box: the text that `BoxFromFloat64Array2Array2` writes makes
`BoxToFloat64Array2Array2` panic, for every box. (PostgreSQL prints a box without the outer parentheses, and
that text is read.) -/
theorem C100_not_box (b d : (F64 × F64) × F64 × F64) :
    (Val.text (boxValue floatCodec b)).scan (boxScan floatCodec d) = .panic := C24_not_box C80_geo b d

/-- **C100** does not hold for arrays of addresses: the table has the valuer's name where the scanner's should
be, and that function makes no scanner. -/
theorem C100_not_inet_arrays : ∀ n ∈ [b!"InetArrayFromIPNetSlice", b!"InetArrayFromIPSlice"],
    (∃ r ∈ compTable, r.entry.valuer = n ∧ r.entry.scanner = n) ∧
    ∃ f ∈ convFuncs, f.name = n ∧ f.kind = .valuer := by
  decide +kernel

theorem intPair_range (e : IntScan) (hs : e.shape = .range) (hc : (intPair e).RoundsTrip) (v d : Int × Int)
    (h1 : e.Both v.1) (h2 : e.Both v.2) : rangeScan e d (some (rangeValue v)) = .ok v := by
  unfold intPair at hc
  rw [hs] at hc
  exact hc v d ⟨h1, h2⟩

/-- **C100** does not hold for the pairs in `narrowPairs`: there is a number that both types hold, that is written
and that the scanner refuses. -/
theorem C100_not_narrow : ∀ p ∈ intNames.zip intScans, p.1 ∈ narrowPairs → ¬ (intPair p.2).RoundsTrip := by
  have h : ∀ p ∈ intNames.zip intScans, p.1 ∈ narrowPairs → p.2 ∈ [
      ⟨"int8ArrayToUintSlice", .int8, .comma, false, 32, .int .uint⟩,
      ⟨"int8RangeArrayToFloat32Array2Slice", .int8, .rangeArr, true, 32, .float32⟩,
      ⟨"numRangeToFloat32Array2", .numeric, .range, true, 64, .float32⟩,
      ⟨"numRangeToFloat64Array2", .numeric, .range, true, 64, .float64⟩,
      ⟨"numRangeArrayToFloat32Array2Slice", .numeric, .rangeArr, true, 32, .float32⟩,
      ⟨"numRangeArrayToFloat64Array2Slice", .numeric, .rangeArr, true, 64, .float64⟩] := by decide +kernel
  intro p hp hn
  have h1 := h p hp hn
  generalize p.2 = e at h1
  simp only [List.mem_cons, List.not_mem_nil, or_false] at h1
  rcases h1 with rfl | rfl | rfl | rfl | rfl | rfl
  · intro hc
    have h2 : intArrScan _ none (intArrValue (some [2 ^ 32])) = .ok (some [2 ^ 32]) := hc (some [2 ^ 32]) none (by intro xs e x hx; cases e; simp at hx; subst hx; exact ⟨by decide, by decide⟩)
    exact absurd h2 (by decide +kernel)
  · intro hc
    have h2 : rangeArrScan _ none (rangeArrValue (some [(2 ^ 32, 2 ^ 33)])) = .ok (some [(2 ^ 32, 2 ^ 33)]) := hc (some [(2 ^ 32, 2 ^ 33)]) none (⟨_, rfl, by intro x hx; simp at hx; subst hx; exact ⟨⟨by decide, trivial⟩, by decide, trivial⟩⟩)
    exact absurd h2 (by decide +kernel)
  · intro hc
    have h2 : rangeScan ⟨"numRangeToFloat32Array2", .numeric, .range, true, 64, .float32⟩ (0, 0)
        (some (rangeValue (2 ^ 64, 2 ^ 65))) = .ok (2 ^ 64, 2 ^ 65) :=
      intPair_range _ rfl hc _ _ ⟨trivial, trivial⟩ ⟨trivial, trivial⟩
    exact absurd h2 (by decide +kernel)
  · intro hc
    have h2 : rangeScan ⟨"numRangeToFloat64Array2", .numeric, .range, true, 64, .float64⟩ (0, 0)
        (some (rangeValue (2 ^ 64, 2 ^ 65))) = .ok (2 ^ 64, 2 ^ 65) :=
      intPair_range _ rfl hc _ _ ⟨trivial, trivial⟩ ⟨trivial, trivial⟩
    exact absurd h2 (by decide +kernel)
  · intro hc
    have h2 : rangeArrScan _ none (rangeArrValue (some [(2 ^ 64, 2 ^ 65)])) = .ok (some [(2 ^ 64, 2 ^ 65)]) := hc (some [(2 ^ 64, 2 ^ 65)]) none (⟨_, rfl, fun _ _ => ⟨⟨trivial, trivial⟩, trivial, trivial⟩⟩)
    exact absurd h2 (by decide +kernel)
  · intro hc
    have h2 : rangeArrScan _ none (rangeArrValue (some [(2 ^ 64, 2 ^ 65)])) = .ok (some [(2 ^ 64, 2 ^ 65)]) := hc (some [(2 ^ 64, 2 ^ 65)]) none (⟨_, rfl, fun _ _ => ⟨⟨trivial, trivial⟩, trivial, trivial⟩⟩)
    exact absurd h2 (by decide +kernel)

/-- **C100** A pair of the table at work: `Int4RangeArrayFromInt64Array2Slice` writes two ranges and
`Int4RangeArrayToInt64Array2Slice` reads them back. -/
theorem C100_example : ∃ r ∈ compTable, r.lit = b!"[][2]int64" ∧
    r.entry.valuer = b!"Int4RangeArrayFromInt64Array2Slice" ∧
    r.entry.scanner = b!"Int4RangeArrayToInt64Array2Slice" ∧
    (∃ e ∈ intScans, e.name.toList = b!"int4RangeArrayToInt64Array2Slice" ∧
      rangeArrValue (some [(-3, 4), (5, 6)]) = some b!"{\"[-3,4)\",\"[5,6)\"}" ∧
      rangeArrScan e none (some b!"{\"[-3,4)\",\"[5,6)\"}") = .ok (some [(-3, 4), (5, 6)])) := by
  decide +kernel

/-- **C100** The converters that the checker finds for a column and a field are those of a row of the table. -/
theorem C100_checked (cat : Catalog) (ctyp : PgType) (ftyp : Analysis.TypeInfo) (typmod1 : Bool) (e : CompEntry)
    (h : typeCompat cat ctyp ftyp typmod1 = some e) (hv : e.valuer.length ≠ 0) (hs : e.scanner.length ≠ 0)
    (hu : (e.valuer, e.scanner) ∉ unpaired) (hn : (e.valuer, e.scanner) ∉ narrowPairs) (spare : Bytes) :
    ∃ c, codecOf spare e.valuer e.scanner = some c ∧ c.RoundsTrip := by
  have row : ∀ o l, lookupComp o typmod1 l = some e → ∃ r ∈ compTable, r.entry = e := by
    intro o l hl
    rw [lookupComp, Option.map_eq_some_iff] at hl
    obtain ⟨r, hr, he⟩ := hl
    exact ⟨r, List.mem_of_find?_eq_some hr, he⟩
  have : ∃ r ∈ compTable, r.entry = e := by
    simp only [typeCompat] at h
    split at h
    · rename_i x hx
      cases h
      exact row _ _ hx
    · split at h
      · exact row _ _ h
      · cases h
  obtain ⟨r, hr, rfl⟩ := this
  exact C100_pairs spare r hr hv hs hu hn

end Verif.Pgsql
