import Verif.Pgsql.Lemmas5
/-
Properties C19-C23: boolean[], bit[], varbit, varbit[], bytea[], uuid, uuid[] and char[].
-/
namespace Verif.Pgsql

open Verif Verif.PgServer

/-- Comma separated arrays of elements that are never empty and have no comma. -/
theorem comma_scan {α β : Type} (f : Bytes → SR β) (g : α → Bytes) (k : α → β) (xs : List α)
    (hc : ∀ x ∈ xs, ',' ∉ g x) (h0 : ∀ x ∈ xs, g x ≠ []) (hf : ∀ x ∈ xs, f (g x) = .ok (k x)) :
    (ofParse (parseCommaArray ('{' :: (joinWith b!"," (xs.map g) ++ ['}'])))).bind (mapRes f) =
      .ok (xs.map k) := by
  rw [parseCommaArray_lit]
  · simp only [ofParse, Res.bind_ok]
    exact mapRes_map f g k xs hf
  · intro y hy
    obtain ⟨x, hx, rfl⟩ := List.mem_map.mp hy
    exact hc x hx
  · match xs, h0 with
    | [], _ => simp
    | [x], h0 => simp [h0 x (by simp)]
    | x :: y :: r, _ => simp

theorem comma_scan_map {α β : Type} (f : Bytes → β) (g : α → Bytes) (k : α → β) (xs : List α)
    (hc : ∀ x ∈ xs, ',' ∉ g x) (h0 : ∀ x ∈ xs, g x ≠ []) (hf : ∀ x ∈ xs, f (g x) = k x) :
    (ofParse (parseCommaArray ('{' :: (joinWith b!"," (xs.map g) ++ ['}'])))).map (·.map f) =
      .ok (xs.map k) := by
  rw [parseCommaArray_lit]
  · simp only [ofParse, Res.map_ok, List.map_map]
    congr 1
    exact List.map_congr_left hf
  · intro y hy
    obtain ⟨x, hx, rfl⟩ := List.mem_map.mp hy
    exact hc x hx
  · match xs, h0 with
    | [], _ => simp
    | [x], h0 => simp [h0 x (by simp)]
    | x :: y :: r, _ => simp

theorem sum_const_one {α : Type} (xs : List α) (f : α → Bytes) (h : ∀ x, (f x).length = 1) :
    (xs.map fun x => (f x).length).sum = xs.length := by
  induction xs with
  | nil => rfl
  | cons x xs ih => rw [List.map_cons, List.sum_cons, h, ih, List.length_cons]; omega

/-! ### C19: boolean[] and bit[] -/

theorem boolValue_some (xs : List Bool) : boolFromBools (some xs) =
    .text ('{' :: (joinWith b!"," (xs.map fun b => if b then ['t'] else ['f']) ++ ['}'])) := by
  apply sizedValue_some
  intro _
  rw [sum_const_one xs _ (by intro x; cases x <;> rfl)]; omega

theorem bitValue_some (xs : List Bool) : bitFromBools (some xs) =
    .text ('{' :: (joinWith b!"," (xs.map fun b => if b then ['1'] else ['0']) ++ ['}'])) := by
  apply sizedValue_some
  intro _
  rw [sum_const_one xs _ (by intro x; cases x <;> rfl)]; omega

theorem bitUintValue_some (xs : List Nat) : bitFromUints (some xs) =
    .text ('{' :: (joinWith b!"," (xs.map fun n => if n = 0 then ['0'] else ['1']) ++ ['}'])) := by
  apply sizedValue_some
  intro _
  rw [sum_const_one xs _ (by intro x; split <;> rfl)]; omega

/-- C19: boolean[] round trip. -/
theorem C19_bool (v d : Option (List Bool)) : (boolFromBools v).scan (boolToBools d) = .ok v := by
  cases v with
  | none => rfl
  | some xs =>
    rw [boolValue_some, Val.scan, boolToBools, scanReset,
      comma_scan (firstIs 't') (fun b : Bool => if b then ['t'] else ['f']) id xs]
    · simp
    all_goals intro x _; cases x <;> simp [firstIs]

/-- C19: bit[] round trip of `[]bool`. -/
theorem C19_bit (v d : Option (List Bool)) : (bitFromBools v).scan (bitToBools d) = .ok v := by
  cases v with
  | none => rfl
  | some xs =>
    rw [bitValue_some, Val.scan, bitToBools, scanReset,
      comma_scan (firstIs '1') (fun b : Bool => if b then ['1'] else ['0']) id xs]
    · simp
    all_goals intro x _; cases x <;> simp [firstIs]

/-- C19: bit[] of `[]uint8`/`[]uint`: zero stays, everything else comes back as one. -/
theorem C19_bit_uint (v d : Option (List Nat)) :
    (bitFromUints v).scan (bitToUints d) = .ok (v.map (·.map fun n => if n = 0 then 0 else 1)) := by
  cases v with
  | none => rfl
  | some xs =>
    rw [bitUintValue_some, Val.scan, bitToUints, scanReset,
      comma_scan (fun e => (firstIs '1' e).map fun x => if x = true then 1 else 0)
        (fun n : Nat => if n = 0 then ['0'] else ['1']) (fun n => if n = 0 then 0 else 1) xs]
    · simp
    all_goals intro x _; by_cases h : x = 0 <;> simp [h, firstIs]

/-- C19: the boolean[] literal is the list of the booleans to the server. -/
theorem C19_server_in (xs : List Bool) : ∃ lit, boolFromBools (some xs) = .text lit ∧
    arrayIn lit = some (xs.map fun b => some (boolOut b)) := by
  refine ⟨_, boolValue_some xs, arrayIn_lit _ _ xs ?_⟩
  intro y _
  have hp : ∀ b : Bool, bareElem (boolOut b) = some (boolOut b) ∧
      (∀ c ∈ boolOut b, isSpace c = false ∧ c ≠ '"' ∧ c ≠ '\\' ∧ c ≠ '{' ∧ c ≠ '}' ∧ c ≠ ',') := by decide
  have := readsAs_plain (boolOut y) (hp y).2 (by cases y <;> decide) _ (hp y).1
  cases y <;> simpa [boolOut] using this

/-- C19: scanning a boolean[] sent by the server: every NULL element is read as false. -/
theorem C19_server_out (xs : List (Option Bool)) (d : Option (List Bool)) :
    boolToBools d (some (arrayOut (xs.map (·.map boolOut)))) = .ok (some (xs.map (·.getD false))) := by
  rw [boolToBools, scanReset, arrayOut, List.map_map, List.cons_append,
    comma_scan (firstIs 't') (elemOut ∘ fun o : Option Bool => o.map boolOut) (·.getD false) xs]
  · rfl
  all_goals
    intro x _
    rcases x with _ | x
    · decide
    · cases x <;> decide

/-- A NULL element cannot be told from false. -/
theorem C19_not_null : boolToBools none (some (arrayOut [none])) =
    boolToBools none (some (arrayOut [some b!"f"])) := by decide

example : boolFromBools (some [true, false, true]) = .text b!"{t,f,t}" := by decide
example : bitFromUints (some [0, 7, 1]) = .text b!"{0,1,1}" := by decide
example : bitToUints none (some b!"{0,1,1}") = .ok (some [0, 1, 1]) := by decide
example : boolToBools none (some b!"{t,,f}") = .panic := by decide

/-! ### C20: varbit and varbit[] -/

/-- C20: the int64 form round trips. -/
theorem C20_int (v : Int) (h : InRange 64 v) (d : Int) :
    varbitToInt d (some (varbitFromInt v)) = .ok v :=
  parseInt_fmtInt 2 64 v (by decide) (by decide) h

/-- C20: the text is a bit string exactly for the non-negative numbers. -/
theorem C20_int_server (v : Int) : BitString (varbitFromInt v) ↔ 0 ≤ v := by
  constructor
  · intro h
    by_cases hv : v < 0
    · rw [varbitFromInt, fmtInt, if_pos hv] at h
      exact absurd (h '-' (by simp)) (by decide)
    · omega
  · intro hv c hc
    rw [varbitFromInt, fmtInt, if_neg (by omega)] at hc
    have := isDig_toDigits 2 v.natAbs (by decide) (by decide) c hc
    have h0 : ('0' : Char).toNat = 48 := rfl
    simp only [isDig, Bool.and_eq_true, decide_eq_true_eq, h0] at this
    have h2 : c.toNat = 48 ∨ c.toNat = 49 := by omega
    rcases h2 with h2 | h2
    · left; rw [← Char.ofNat_toNat c, h2]
    · right; rw [← Char.ofNat_toNat c, h2]

theorem bitChar_eq_one (b : Bool) : decide (bitChar b = '1') = b := by cases b <;> decide

/-- C20: `[]bool` round trip. -/
theorem C20_bools (v d : Option (List Bool)) : varbitToBools d (varbitFromBools v) = .ok v := by
  cases v with
  | none => rfl
  | some xs =>
    simp [varbitFromBools, varbitToBools, scanReset, Function.comp_def, bitChar_eq_one]

/-- C20: `[]uint8`: what comes back is one for one and zero for everything else. -/
theorem C20_uint8s (v d : Option (List Nat)) : varbitToUint8s d (varbitFromUint8s v) =
    .ok (v.map (·.map fun n => if n = 1 then 1 else 0)) := by
  cases v with
  | none => rfl
  | some xs =>
    simp only [varbitFromUint8s, varbitToUint8s, scanReset, Option.map_some, List.map_map, Res.map_ok]
    congr 3
    funext n
    by_cases h : n = 1 <;> simp [h, bitChar]

/-- C20: `[]uint8` of zeros and ones round trips. -/
theorem C20_uint8s_01 (xs : List Nat) (h : ∀ n ∈ xs, n ≤ 1) (d : Option (List Nat)) :
    varbitToUint8s d (varbitFromUint8s (some xs)) = .ok (some xs) := by
  rw [C20_uint8s, Option.map_some]
  congr 2
  conv => rhs; rw [← List.map_id xs]
  apply List.map_congr_left
  intro n hn
  have := h n hn
  by_cases h1 : n = 1
  · simp [h1]
  · simp [h1]; omega

theorem vbSize_ok {α : Type} (bit : α → Char) (xs : List (Option (List α))) (h : xs ≠ []) :
    vbSize xs = 1 + (xs.map fun x => (vbElem bit x).length).sum + xs.length := by
  have hl : 0 < xs.length := List.length_pos_iff.mpr h
  have e : vbSize xs = 2 + (xs.length - 1) + (xs.map fun x => (vbElem bit x).length).sum := by
    rw [vbSize]
    congr 2
    apply List.map_congr_left
    intro x _
    rcases x with _ | bs
    · rfl
    · simp only [vbElem]; split <;> simp
  rw [e]; omega

theorem vbElem_comma {α : Type} (bit : α → Char) (hb : ∀ a, bit a = '0' ∨ bit a = '1')
    (x : Option (List α)) : ',' ∉ vbElem bit x := by
  rcases x with _ | bs
  · simp [vbElem]
  · simp only [vbElem]
    split
    · simp
    · simp only [List.mem_map, not_exists, not_and]
      intro a _
      rcases hb a with h | h <;> rw [h] <;> decide

theorem vbElem_ne {α : Type} (bit : α → Char) (x : Option (List α)) : vbElem bit x ≠ [] := by
  rcases x with _ | bs
  · simp [vbElem]
  · simp only [vbElem]
    split
    · simp
    · rename_i h
      intro e
      rw [List.map_eq_nil_iff] at e
      simp [e] at h

theorem vbScan_elem {α β : Type} (bit : α → Char) (hb : ∀ a, bit a = '0' ∨ bit a = '1')
    (f : Char → β) (x : Option (List α)) :
    vbScanElem f (vbElem bit x) = x.map (·.map fun a => f (bit a)) := by
  rcases x with _ | bs
  · simp [vbElem, vbScanElem]
  · cases bs with
    | nil => simp [vbElem, vbScanElem]
    | cons a bs =>
      have h1 : bit a ≠ 'N' := by rcases hb a with h | h <;> rw [h] <;> decide
      have h2 : bit a ≠ '"' := by rcases hb a with h | h <;> rw [h] <;> decide
      simp [vbElem, vbScanElem, h1, h2, Function.comp_def]

theorem bitChar_01 (b : Bool) : bitChar b = '0' ∨ bitChar b = '1' := by cases b <;> decide

/-- C20: varbit[] of `[][]bool` round trips, nil and empty inner slices included. -/
theorem C20_arr_bools (v d : Option (List (Option (List Bool)))) :
    (varbitArrFromBools v).scan (varbitArrToBools d) = .ok v := by
  cases v with
  | none => rfl
  | some xs =>
    rw [varbitArrFromBools, sizedValue_some _ _ _ (vbSize_ok bitChar xs), Val.scan, varbitArrToBools,
      scanReset, comma_scan_map _ (vbElem bitChar) id xs]
    · simp
    · exact fun x _ => vbElem_comma _ bitChar_01 x
    · exact fun x _ => vbElem_ne _ x
    · intro x _
      rw [vbScan_elem _ bitChar_01]
      rcases x with _ | bs <;> simp [bitChar_eq_one]

/-- C20: varbit[] of `[][]uint8`. -/
theorem C20_arr_uint8s (v d : Option (List (Option (List Nat)))) :
    (varbitArrFromUint8s v).scan (varbitArrToUint8s d) =
      .ok (v.map (·.map (·.map (·.map fun n => if n = 1 then 1 else 0)))) := by
  cases v with
  | none => rfl
  | some xs =>
    rw [varbitArrFromUint8s, sizedValue_some _ _ _ (vbSize_ok _ xs), Val.scan, varbitArrToUint8s,
      scanReset, comma_scan_map _ (vbElem fun n => bitChar (decide (n = 1)))
        (·.map (·.map fun n => if n = 1 then 1 else 0)) xs]
    · rfl
    · exact fun x _ => vbElem_comma _ (fun _ => bitChar_01 _) x
    · exact fun x _ => vbElem_ne _ x
    · intro x _
      rw [vbScan_elem _ (fun _ => bitChar_01 _)]
      rcases x with _ | bs
      · rfl
      · simp only [Option.map_some]
        congr 2
        funext n
        by_cases h : n = 1 <;> simp [h, bitChar]

/-- C20: varbit[] of bit strings given as Go strings. -/
theorem C20_arr_strings (xs : List Bytes) (h : ∀ s ∈ xs, BitString s) (d : Option (List Bytes)) :
    (varbitArrFromStrings (some xs)).scan (varbitArrToStrings d) = .ok (some xs) := by
  have hsz : xs ≠ [] → 2 + (xs.length - 1) +
      (xs.map fun x => if x.length = 0 then 2 else x.length).sum =
      1 + (xs.map fun s => (if s.length = 0 then b!"\"\"" else s).length).sum + xs.length := by
    intro h0
    have hl : 0 < xs.length := List.length_pos_iff.mpr h0
    have : (xs.map fun x => if x.length = 0 then 2 else x.length) =
        xs.map fun s => (if s.length = 0 then b!"\"\"" else s).length := by
      apply List.map_congr_left; intro x _; split <;> simp
    rw [this]; omega
  have hx : ∀ s ∈ xs, ∀ c, c ≠ '0' → c ≠ '1' → c ∉ s := by
    intro s hs c h0 h1 hc
    rcases h s hs c hc with e | e
    · exact h0 e
    · exact h1 e
  rw [varbitArrFromStrings, sizedValue_some _ _ _ hsz, Val.scan, varbitArrToStrings, scanReset,
    comma_scan_map _ (fun s : Bytes => if s.length = 0 then b!"\"\"" else s) id xs]
  · simp
  · intro s hs
    split
    · simp
    · exact hx s hs ',' (by decide) (by decide)
  · intro s _
    split
    · simp
    · rename_i h0; intro e; simp [e] at h0
  · intro s hs
    cases s with
    | nil => rfl
    | cons c s =>
      have : c ≠ '"' := by
        intro e; exact hx _ hs '"' (by decide) (by decide) (by simp [e])
      simp [this]

/-- C20: varbit[] of `[]int64`. -/
theorem C20_arr_ints (v : Option (List Int)) (h : ∀ xs, v = some xs → ∀ x ∈ xs, InRange 64 x)
    (d : Option (List Int)) : varbitArrToInts d (varbitArrFromInts v) = .ok v := by
  cases v with
  | none => rfl
  | some xs =>
    rw [varbitArrFromInts, arrValue_some, varbitArrToInts, scanReset,
      comma_scan (parseInt 2 64) (fmtInt 2) id xs]
    · simp
    · exact fun x _ => not_mem_fmtInt 2 x (by decide) (by decide) ',' (isDig_comma 2) (by decide)
    · intro x _
      unfold fmtInt
      split
      · simp
      · exact Nat.toDigits_ne_nil
    · exact fun x hx => parseInt_fmtInt 2 64 x (by decide) (by decide) (h xs rfl x hx)

/-- C20: the varbit[] literal of bit slices means the same bit strings to the server. -/
theorem C20_arr_server (xs : List (Option (List Bool))) : ∃ lit,
    varbitArrFromBools (some xs) = .text lit ∧
    arrayIn lit = some (xs.map (·.map (·.map bitChar))) ∧
    ∀ b ∈ xs, ∀ s, b = some s → BitString (s.map bitChar) := by
  refine ⟨_, sizedValue_some _ _ _ (vbSize_ok bitChar xs), arrayIn_lit _ _ xs ?_, ?_⟩
  · intro y _
    rcases y with _ | bs
    · exact readsAs_null
    · cases bs with
      | nil => exact readsAs_quoted escaped covers_escaped []
      | cons a bs =>
        have e : vbElem bitChar (some (a :: bs)) = (a :: bs).map bitChar := by simp [vbElem]
        rw [e]
        have hall : ∀ c ∈ (a :: bs).map bitChar, c = '0' ∨ c = '1' := by
          intro c hc
          obtain ⟨b, -, rfl⟩ := List.mem_map.mp hc
          exact bitChar_01 b
        have hp : Plain ((a :: bs).map bitChar) := by
          intro c hc
          rcases hall c hc with rfl | rfl <;> decide
        refine readsAs_plain _ hp (by simp) _ ?_
        have ht : trimEnd ((a :: bs).map bitChar) = (a :: bs).map bitChar := trimEnd_plain _ hp
        rw [bareElem, ht, if_neg]
        · rfl
        · rw [isNull]
          intro hn
          have hn' := eq_of_beq hn
          simp only [List.map_cons, List.cons.injEq] at hn'
          have h0 := hn'.1
          revert h0
          cases a <;> decide
  · intro b _ s _ c hc
    obtain ⟨b, -, rfl⟩ := List.mem_map.mp hc
    exact bitChar_01 b

example : varbitFromInt (-5) = b!"-101" := by decide
example : ¬ BitString (varbitFromInt (-5)) := by rw [C20_int_server]; decide
example : varbitToInt 0 (some b!"-101") = .ok (-5) := by decide
example : varbitFromUint8s (some [1, 2, 0]) = some b!"100" := by decide
example : varbitArrFromBools (some [none, some [], some [true, false]]) = .text b!"{NULL,\"\",10}" := by
  decide
example : varbitArrToBools none (some b!"{NULL,\"\",10}") =
    .ok (some [none, some [], some [true, false]]) := by decide

/-! ### C21: bytea[] -/

/-- C21: round trip. -/
theorem C21_round_trip (v d : Option (List (List UInt8))) : byteaToBytes d (byteaFromBytes v) = .ok v := by
  cases v with
  | none => rfl
  | some xs =>
    rw [byteaFromBytes, arrValue_some, byteaToBytes, scanReset,
      comma_scan byteaScanElem byteaElem id xs]
    · simp
    · intro x _
      simp [byteaElem, (not_mem_hexEncode x).1]
    · intro x _; simp [byteaElem]
    · intro x _
      have : ¬ (byteaElem x).length < 5 := by simp [byteaElem]
      rw [byteaScanElem, if_neg this]
      have e : ((byteaElem x).drop 4).dropLast = hexEncode x := by simp [byteaElem]
      rw [e, hexDecode_hexEncode]; rfl

/-- C21: the server reads the list from the literal. -/
theorem C21_server_in (xs : List (List UInt8)) : ∃ lit es,
    byteaFromBytes (some xs) = some lit ∧ arrayIn lit = some es ∧
    es.map (fun e => e.map byteaIn) = xs.map fun x => some (some x) := by
  refine ⟨_, _, arrValue_some _ _, arrayIn_lit byteaElem (fun x => some (b!"\\x" ++ hexEncode x)) xs ?_, ?_⟩
  · intro x _
    have := readsAs_quoted (fun c => decide (c = '"' ∨ c = '\\')) covers_out (b!"\\x" ++ hexEncode x)
    rwa [show '"' :: (escWith (fun c => decide (c = '"' ∨ c = '\\')) (b!"\\x" ++ hexEncode x) ++ ['"'])
      = byteaElem x from ?_] at this
    have h := not_mem_hexEncode x
    rw [byteaElem]
    have he : escWith (fun c => decide (c = '"' ∨ c = '\\')) (hexEncode x) = hexEncode x :=
      escWith_none _ _ (by
        intro c hc
        have h1 : c ≠ '"' := fun e => h.2.1 (e ▸ hc)
        have h2 : c ≠ '\\' := fun e => h.2.2 (e ▸ hc)
        simp [h1, h2])
    simp only [escWith_cons, List.cons_append, List.nil_append, he]; rfl
  · rw [List.map_map]
    apply List.map_congr_left
    intro x _
    simp [byteaIn, byteaHex_hexEncode]

theorem hexChar_eq : ∀ n < 16, hexChar n = hexDigit n := by decide

theorem byteaOut_eq (x : List UInt8) : byteaOut x = b!"\\x" ++ hexEncode x := by
  rw [byteaOut, hexEncode]
  congr 1
  induction x with
  | nil => rfl
  | cons b x ih =>
    simp only [List.flatMap_cons, ih, hexChar_eq _ (u8_hi b),
      hexChar_eq (b.toNat % 16) (Nat.mod_lt _ (by decide))]

theorem elemOut_bytea (x : List UInt8) : elemOut (some (byteaOut x)) = byteaElem x := by
  have hq : needsQuote (byteaOut x) = true := by
    simp [needsQuote, byteaOut]
  rw [elemOut, if_pos hq, byteaOut_eq, quoteOut_eq]
  have h := not_mem_hexEncode x
  have he : escWith (fun c => decide (c = '"' ∨ c = '\\')) (hexEncode x) = hexEncode x :=
    escWith_none _ _ (by
      intro c hc
      have h1 : c ≠ '"' := fun e => h.2.1 (e ▸ hc)
      have h2 : c ≠ '\\' := fun e => h.2.2 (e ▸ hc)
      simp [h1, h2])
  simp only [escWith_cons, List.cons_append, List.nil_append, he]; rfl

/-- C21: scanning what the server sends for a list without NULL. -/
theorem C21_server_out (xs : List (List UInt8)) (d : Option (List (List UInt8))) :
    byteaToBytes d (some (arrayOut (xs.map fun x => some (byteaOut x)))) = .ok (some xs) := by
  have e : arrayOut (xs.map fun x => some (byteaOut x)) = '{' :: (joinWith b!"," (xs.map byteaElem) ++ ['}']) := by
    simp [arrayOut, Function.comp_def, elemOut_bytea]
  have := C21_round_trip (some xs) d
  rwa [byteaFromBytes, arrValue_some, ← e] at this

theorem mapRes_panic {α β γ : Type} (f : β → SR γ) (g : α → β) (xs : List α)
    (h : ∀ x ∈ xs, f (g x) = .panic ∨ ∃ y, f (g x) = .ok y) (hp : ∃ x ∈ xs, f (g x) = .panic) :
    mapRes f (xs.map g) = .panic := by
  induction xs with
  | nil => simp at hp
  | cons x xs ih =>
    rw [List.map_cons, mapRes]
    rcases h x (by simp) with hx | ⟨y, hx⟩
    · rw [hx]; rfl
    · rw [hx]
      obtain ⟨z, hz, hzp⟩ := hp
      have hz' : z ∈ xs := by
        rcases List.mem_cons.mp hz with rfl | hz'
        · rw [hx] at hzp; cases hzp
        · exact hz'
      rw [Res.bind_ok, ih (fun w hw => h w (by simp [hw])) ⟨z, hz', hzp⟩]
      rfl

/-- C21: a NULL anywhere in the array makes the scanner panic. -/
theorem C21_server_null (xs : List (Option (List UInt8))) (h : none ∈ xs)
    (d : Option (List (List UInt8))) :
    byteaToBytes d (some (arrayOut (xs.map (·.map byteaOut)))) = .panic := by
  have hne : ∀ x : Option (List UInt8), elemOut (x.map byteaOut) ≠ [] ∧ ',' ∉ elemOut (x.map byteaOut) := by
    intro x
    rcases x with _ | x
    · decide
    · rw [Option.map_some, elemOut_bytea]
      simp [byteaElem, (not_mem_hexEncode x).1]
  rw [byteaToBytes, scanReset, arrayOut, List.map_map, List.cons_append, parseCommaArray_lit]
  · rw [ofParse, Res.bind_ok, mapRes_panic]
    · rfl
    · intro x _
      rcases x with _ | x
      · left; decide
      · right
        refine ⟨x, ?_⟩
        rw [Function.comp_apply, Option.map_some, elemOut_bytea, byteaScanElem,
          if_neg (by simp [byteaElem])]
        have e : ((byteaElem x).drop 4).dropLast = hexEncode x := by simp [byteaElem]
        rw [e, hexDecode_hexEncode]
    · exact ⟨none, h, by decide⟩
  · intro y hy
    obtain ⟨x, -, rfl⟩ := List.mem_map.mp hy
    exact (hne x).2
  · intro e
    have : ([] : Bytes) ∈ [([] : Bytes)] := by simp
    rw [← e] at this
    obtain ⟨x, -, hx⟩ := List.mem_map.mp this
    exact (hne x).1 hx

example : byteaFromBytes (some [[0xde, 0xad], [], [0x2c]]) =
    some b!"{\"\\\\xdead\",\"\\\\x\",\"\\\\x2c\"}" := by decide
example : byteaToBytes none (some b!"{\"\\\\xDEAD\",NULL}") = .panic := by decide
example : byteaToBytes none (some b!"{\"\\\\xdea\"}") = .err .hex := by decide

/-! ### C22: uuid and uuid[] -/

/-- C22: 36 characters. -/
theorem C22_length (u : List UInt8) (h : u.length = 16) : (formatUUID u).length = 36 :=
  length_formatUUID u h

/-- C22: dashes at 8, 13, 18 and 23; the rest is the 32 lower case hexadecimal digits. -/
theorem C22_dashes (u : List UInt8) (h : u.length = 16) :
    (formatUUID u)[8]? = some '-' ∧ (formatUUID u)[13]? = some '-' ∧
    (formatUUID u)[18]? = some '-' ∧ (formatUUID u)[23]? = some '-' ∧
    (formatUUID u).filter (· ≠ '-') = hexEncode u := by
  have hd : ∀ l : List UInt8, (hexEncode l).filter (· ≠ '-') = hexEncode l := by
    intro l
    apply List.filter_eq_self.mpr
    intro c hc
    obtain ⟨b, -, hb⟩ := List.mem_flatMap.mp hc
    simp only [List.mem_cons, List.not_mem_nil, or_false] at hb
    rcases hb with rfl | rfl
    · simpa using (hexDigit_props _ (u8_hi b)).2.2.2.2.2
    · simpa using (hexDigit_props (b.toNat % 16) (Nat.mod_lt _ (by decide))).2.2.2.2.2
  refine ⟨?_, ?_, ?_, ?_, ?_⟩
  iterate 4
    revert u
    refine bytes16 ?_
    intro b0 b1 b2 b3 b4 b5 b6 b7 b8 b9 b10 b11 b12 b13 b14 b15
    rfl
  · have e : u = u.take 4 ++ (u.drop 4).take 2 ++ (u.drop 6).take 2 ++ (u.drop 8).take 2 ++ u.drop 10 := by
      revert u
      refine bytes16 ?_
      intro b0 b1 b2 b3 b4 b5 b6 b7 b8 b9 b10 b11 b12 b13 b14 b15
      rfl
    conv => rhs; rw [e]
    have hm : [('-' : Char)].filter (· ≠ '-') = [] := by decide
    simp only [formatUUID, List.filter_append, hd, hm, hexEncode_append, List.append_nil]

/-- C22: parsing the formatted uuid gives back the 16 bytes, whatever follows the text in memory. -/
theorem C22_round_trip (u : List UInt8) (h : u.length = 16) (spare : Bytes) (d : List UInt8) :
    uuidScan spare d (some (formatUUID u)) = .ok u :=
  parseUUID_formatUUID spare u h

/-- C22: uuid[] round trip. -/
theorem C22_arr (v : Option (List (List UInt8))) (h : ∀ us, v = some us → ∀ u ∈ us, u.length = 16)
    (spare : Bytes) (d : Option (List (List UInt8))) :
    (uuidArrValue v).scan (uuidArrScan spare d) = .ok v := by
  cases v with
  | none => rfl
  | some us =>
    have h16 := h us rfl
    have hsum : (us.map fun u => (formatUUID u).length).sum = us.length * 36 := by
      clear h
      induction us with
      | nil => rfl
      | cons u us ih =>
        simp only [List.map_cons, List.sum_cons, List.length_cons,
          length_formatUUID u (h16 u (by simp)), ih (fun x hx => h16 x (by simp [hx]))]
        omega
    rw [uuidArrValue, sizedValue_some _ _ _ (by intro _; rw [hsum]; omega), Val.scan, uuidArrScan,
      scanReset, parseCommaArray_lit]
    · simp only [ofParse, Res.bind_ok, mapRes_withSpare _ us h16, Res.map_ok]
    · intro y hy
      obtain ⟨u, -, rfl⟩ := List.mem_map.mp hy
      exact comma_formatUUID u
    · intro e
      have : ([] : Bytes) ∈ [([] : Bytes)] := by simp
      rw [← e] at this
      obtain ⟨u, hu, hx⟩ := List.mem_map.mp this
      have := length_formatUUID u (h16 u hu)
      rw [hx] at this; simp at this

/-- C22: a text shorter than 24 bytes is never accepted. -/
theorem C22_short (spare data : Bytes) (h : data.length < 24) (u : List UInt8) :
    parseUUID spare data ≠ .ok u := by
  have h5 : sliceFrom data 24 = .panic := by rw [sliceFrom, if_pos h]
  have hb : ∀ {α β : Type} (r : SR α) (f : α → SR β), (∀ a, ∀ b, f a ≠ .ok b) → ∀ b, (r >>= f) ≠ .ok b := by
    intro α β r f hf b
    cases r with
    | ok a => exact hf a b
    | err e => simp
    | panic => simp
  revert u
  unfold parseUUID
  refine hb _ _ fun a => hb _ _ fun b => hb _ _ fun c => hb _ _ fun d => ?_
  rw [h5]
  intro u
  simp

/-- C22: the accepted texts are not only the uuids: the separators are not looked at, missing digits
at the end become zeros; too many digits panic. -/
theorem C22_not_strict :
    parseUUID [] b!"00112233x4455x6677x8899xaabbccddeeff" =
      .ok [0x00, 0x11, 0x22, 0x33, 0x44, 0x55, 0x66, 0x77, 0x88, 0x99, 0xaa, 0xbb, 0xcc, 0xdd, 0xee, 0xff] ∧
    parseUUID [] b!"00112233-4455-6677-8899-aabb" =
      .ok [0x00, 0x11, 0x22, 0x33, 0x44, 0x55, 0x66, 0x77, 0x88, 0x99, 0xaa, 0xbb, 0, 0, 0, 0] ∧
    parseUUID [] b!"00112233-4455-6677-8899-aabbccddeeff00" = .panic ∧
    parseUUID [] b!"00112233-4455" = .panic := by decide

/-- C22: `[][]byte` of uuid texts, with nil elements. -/
theorem C22_texts (v d : Option (List (Option Bytes)))
    (h : ∀ xs, v = some xs → ∀ x ∈ xs, ∀ s, x = some s → s.length = 36 ∧ ',' ∉ s) :
    (uuidArrFromTexts v).scan (uuidArrToTexts d) = .ok v := by
  cases v with
  | none => rfl
  | some xs =>
    have h' := h xs rfl
    have hsz : xs ≠ [] → 2 + (xs.length - 1) + (xs.map fun x => match x with
        | none => 4
        | some s => s.length).sum =
        1 + (xs.map fun x => (x.getD b!"NULL").length).sum + xs.length := by
      intro h0
      have hl : 0 < xs.length := List.length_pos_iff.mpr h0
      have : (xs.map fun x => match x with
          | none => 4
          | some s => s.length) = xs.map fun x => (x.getD b!"NULL").length := by
        apply List.map_congr_left; intro x _; rcases x with _ | s <;> rfl
      rw [this]; omega
    rw [uuidArrFromTexts, sizedValue_some _ _ _ hsz, Val.scan, uuidArrToTexts, scanReset,
      comma_scan_map _ (fun x : Option Bytes => x.getD b!"NULL") id xs]
    · simp
    · intro x hx
      rcases x with _ | s
      · decide
      · exact (h' _ hx s rfl).2
    · intro x hx
      rcases x with _ | s
      · decide
      · have := (h' _ hx s rfl).1
        intro e; simp at e; simp [e] at this
    · intro x hx
      rcases x with _ | s
      · rfl
      · have := (h' _ hx s rfl).1
        simp [this]

example : formatUUID [0x00, 0x11, 0x22, 0x33, 0x44, 0x55, 0x66, 0x77, 0x88, 0x99, 0xaa, 0xbb, 0xcc, 0xdd, 0xee, 0xff]
    = b!"00112233-4455-6677-8899-aabbccddeeff" := by decide

/-! ### C23: char[] -/

/-- C23: round trip of byte slices without backspace and bell. -/
theorem C23_bytes (v d : Option Bytes) (h : ∀ cs, v = some cs → ∀ c ∈ cs, droppedChar c = false) :
    charToBytes d (charFromBytes v) = .ok v := by
  cases v with
  | none => rfl
  | some cs =>
    cases cs with
    | nil => rfl
    | cons c cs =>
      have hf : ((c :: cs).filter fun c => !droppedChar c) = c :: cs := by
        apply List.filter_eq_self.mpr
        intro x hx; simp [h _ rfl x hx]
      rw [charFromBytes, charLit_eq _ _ ⟨c, by simp, h _ rfl c (by simp)⟩, hf, charToBytes, scanReset,
        parseArray2_charLit _ encOK_id]
      simp [ofParse]

/-- C23: what exactly comes back for any slice with at least one other character: backspace and
bell are lost. -/
theorem C23_dropped (cs d : Bytes) (h : ∃ c ∈ cs, droppedChar c = false) :
    charToBytes (some d) (charFromBytes (some cs)) = .ok (some (cs.filter fun c => !droppedChar c)) := by
  rw [charFromBytes, charLit_eq _ _ h, charToBytes, scanReset, parseArray2_charLit _ encOK_id]
  simp [ofParse]

/-- C23: a slice of dropped characters only gives the text `}`, which the server rejects and the
scanner panics on. -/
theorem C23_only_dropped (cs : Bytes) (d : Option Bytes) (h0 : cs ≠ [])
    (h : ∀ c ∈ cs, droppedChar c = true) :
    charFromBytes (some cs) = some b!"}" ∧ arrayIn b!"}" = none ∧
    charToBytes d (charFromBytes (some cs)) = .panic := by
  have e : charFromBytes (some cs) = some b!"}" := charLit_dropped _ cs h0 h
  refine ⟨e, by decide, ?_⟩
  rw [e, charToBytes, scanReset]
  have : parseArray2 b!"}" = none := by decide
  simp [this, ofParse]

/-- C23 for strings, the text in UTF-8: the string comes back byte for byte. -/
theorem C23_string (rs : List Char) (d : Bytes) (h : ∀ c ∈ rs, droppedChar c = false) :
    charToString d (charFromString rs) = .ok (rs.flatMap utf8) := by
  cases rs with
  | nil => rfl
  | cons c rs =>
    have hf : ((c :: rs).filter fun c => !droppedChar c) = c :: rs := by
      apply List.filter_eq_self.mpr
      intro x hx; simp [h x hx]
    rw [charFromString, charLit_eq _ _ ⟨c, by simp, h c (by simp)⟩, hf, charToString, scanKeep,
      parseArray2_charLit _ encOK_utf8]
    simp [ofParse]

/-- C23: the literal means the list of characters to the server if there is no brace. -/
theorem C23_server_in_partial (cs : Bytes) (h : ∀ c ∈ cs, droppedChar c = false)
    (hb : ∀ c ∈ cs, c ≠ '{' ∧ c ≠ '}') :
    ∃ lit, charFromBytes (some cs) = some lit ∧ arrayIn lit = some (cs.map fun c => some [c]) := by
  cases cs with
  | nil => exact ⟨b!"{}", rfl, by decide⟩
  | cons c cs =>
    have hf : ((c :: cs).filter fun c => !droppedChar c) = c :: cs := by
      apply List.filter_eq_self.mpr
      intro x hx; simp [h x hx]
    refine ⟨_, charLit_eq _ _ ⟨c, by simp, h c (by simp)⟩, ?_⟩
    rw [hf]
    refine arrayIn_lit _ _ _ ?_
    intro x hx
    obtain ⟨hb1, hb2⟩ := hb x hx
    rw [charBody]
    split
    · rename_i hs
      have := readsAs_quoted (fun c => decide (c = '"' ∨ c = '\\')) covers_out [x]
      have e : escWith (fun c => decide (c = '"' ∨ c = '\\')) [x] = [x] := by
        rcases hs with rfl | rfl | rfl | rfl | rfl | rfl <;> decide
      rwa [e] at this
    · split
      · rename_i hs
        have := readsAs_quoted (fun c => decide (c = '"' ∨ c = '\\')) covers_out [x]
        have e : escWith (fun c => decide (c = '"' ∨ c = '\\')) [x] = ['\\', x] := by
          rcases hs with rfl | rfl <;> decide
        rwa [e] at this
      · split
        · rename_i hs
          subst hs
          exact readsAs_quoted (fun c => decide (c = '"' ∨ c = '\\')) covers_out [',']
        · rename_i h1 h2 h3
          have hsp : isSpace x = false := by
            simp only [isSpace, Bool.or_eq_false_iff, decide_eq_false_iff_not]
            simp only [not_or] at h1
            exact ⟨⟨⟨⟨⟨h1.1, h1.2.1⟩, h1.2.2.2.1⟩, h1.2.2.1⟩, h1.2.2.2.2.2⟩, h1.2.2.2.2.1⟩
          simp only [not_or] at h2
          have hp : Plain [x] := by
            intro c hc
            simp only [List.mem_singleton] at hc
            subst hc
            exact ⟨hsp, h2.1, h2.2, hb1, hb2, h3⟩
          refine readsAs_plain [x] hp (by simp) _ ?_
          rw [bareElem, trimEnd_plain _ hp, if_neg]
          simp [isNull]

/-- C23: with a brace the literal is rejected by the server or read as something else. -/
theorem C23_not_server_braces :
    charFromBytes (some b!"{") = some b!"{{}" ∧ arrayIn b!"{{}" = none ∧
    charFromBytes (some b!"a}") = some b!"{a,}}" ∧ arrayIn b!"{a,}}" = none := by decide

/-- C23: scanning any array of single characters sent by the server yields them. -/
theorem C23_server_out (cs : Bytes) (d : Option Bytes) :
    charToBytes d (some (arrayOut (cs.map fun c => some [c]))) = .ok (some cs) := by
  have hl : ∀ x ∈ cs, ∀ t, AtComma t →
      arr2Loop 0 (elemOut (some [x]) ++ t) = (arr2Loop 0 t).map ([x] ++ ·) := by
    intro x _ t _
    rw [elemOut]
    split
    · rw [quoteOut]
      by_cases hx : x = '"' ∨ x = '\\'
      · have := arr2Loop_escaped x t
        simpa [hx, consO_eq] using this
      · have := arr2Loop_quoted x t (fun e => hx (Or.inr e))
        simpa [hx, consO_eq] using this
    · rename_i hq
      have hq' : needsQuote [x] = false := by simpa using hq
      have hp := (plain_of_not_needsQuote _ hq').1 x (by simp)
      exact arr2Loop_plain x t hp.2.1 hp.2.2.2.2.2
  have := join_loopO (arr2Loop 0) (fun x => elemOut (some [x])) (fun x => [x]) cs (by simp [arr2Loop])
    arr2Loop_comma hl
  rw [charToBytes, scanReset, arrayOut, List.map_map, List.cons_append, parseArray2, dropEnds_wrap]
  simp only [Option.bind_eq_bind, Option.bind_some, Function.comp_def, this, ofParse]
  simp

/-- C23: a NULL element becomes the four characters of the word. -/
theorem C23_not_null :
    charToBytes none (some (arrayOut [some b!"a", none])) = .ok (some b!"aNULL") := by decide

example : charFromBytes (some b!"a\x08,\"") = some b!"{a,\",\",\"\\\"\"}" := by decide
example : charToBytes none (some b!"{a,\",\",\"\\\"\"}") = .ok (some b!"a,\"") := by decide

end Verif.Pgsql
