import Verif.Pgsql.PropsNet4
/-
C78: macaddr, macaddr8 and their arrays.
-/
namespace Verif.Pgsql

open Verif Verif.PgServer

theorem hexDigit_digitChar : ∀ n < 16, hexDigit n = Nat.digitChar n := by decide

theorem macText_eq (m : Raw) : macText m = macOut m := by
  rw [macText, macOut, sepBy_eq]
  congr 1
  refine List.map_congr_left fun b _ => ?_
  rw [hexEncode_cons, hexDigit_digitChar _ (u8_hi b), hexDigit_digitChar _ (Nat.mod_lt _ (by decide))]
  rfl

theorem macText_cons (b : UInt8) (m : Raw) (h : m ≠ []) : macText (b :: m) =
    hexDigit (b.toNat / 16) :: hexDigit (b.toNat % 16) :: ':' :: macText m := by
  match m, h with
  | c :: m, _ => rfl

theorem macText_length (m : Raw) (h : m ≠ []) : (macText m).length + 1 = 3 * m.length := by
  induction m with
  | nil => exact absurd rfl h
  | cons b m ih =>
    cases m with
    | nil => rfl
    | cons c m =>
      have := ih (by simp)
      rw [macText_cons b _ (by simp), List.length_cons, List.length_cons, List.length_cons, List.length_cons]
      omega

theorem xtoi2_hex (b : UInt8) (r : Bytes) (h : r.length > 0 → r.head? = some ':') :
    xtoi2 (hexDigit (b.toNat / 16) :: hexDigit (b.toNat % 16) :: r) ':' = some b := by
  rw [xtoi2, if_neg (fun hc => hc.2 (h hc.1)), (hexDigit_props _ (u8_hi b)).1,
    (hexDigit_props _ (Nat.mod_lt _ (by decide))).1]
  simp only []
  rw [u8_back]

theorem macLoop_text (m : Raw) : macLoop ':' m.length (macText m) = some m := by
  induction m with
  | nil => rfl
  | cons b m ih =>
    rw [List.length_cons, macLoop]
    cases m with
    | nil =>
      rw [show macText [b] = hexDigit (b.toNat / 16) :: hexDigit (b.toNat % 16) :: [] from rfl,
        xtoi2_hex b [] (by simp)]
      rfl
    | cons c m =>
      rw [macText_cons b _ (by simp), xtoi2_hex b _ (by simp), Option.bind_some]
      show (macLoop ':' (c :: m).length (macText (c :: m))).map _ = _
      rw [ih]
      rfl

theorem parseMAC_text (m : Raw) : parseMAC (macText m) =
    if m.length = 6 ∨ m.length = 8 ∨ m.length = 20 then .ok m else .err .net := by
  cases m with
  | nil => rfl
  | cons b m =>
    have hl := macText_length (b :: m) (by simp)
    rw [parseMAC]
    by_cases h5 : (b :: m).length ≤ 4
    · rw [if_pos (by omega), if_neg (by omega)]
    · have hm : m ≠ [] := fun e => by rw [e] at h5; exact h5 (by simp)
      have h2 : (macText (b :: m))[2]? = some ':' := by rw [macText_cons b m hm]; rfl
      have hd : (macText (b :: m)).getD 2 ':' = ':' := by rw [macText_cons b m hm]; rfl
      rw [if_neg (by omega), h2, if_pos (.inl rfl), hl, if_neg (by omega),
        show 3 * (b :: m).length / 3 = (b :: m).length by omega, hd, macLoop_text]
      by_cases hk : (b :: m).length = 6 ∨ (b :: m).length = 8 ∨ (b :: m).length = 20
      · rw [if_pos hk, if_neg (by omega)]
      · rw [if_neg hk, if_pos (by omega)]

/-- **C78** A hardware address is written as the server writes it. -/
theorem C78_text (m : Raw) : macValue (some m) = some (macOut m) := by
  rw [macValue, Option.map_some, macText_eq]

/-- **C78** A text of the server is scanned as the address exactly if it has 6, 8 or 20 bytes. -/
theorem C78_server (m : Raw) (d : Option Raw) : macScan d (some (macOut m)) =
    if m.length = 6 ∨ m.length = 8 ∨ m.length = 20 then .ok (some m) else .err .net := by
  rw [← macText_eq, macScan, scanKeep, parseMAC_text]
  split <;> rfl

/-- **C78** What was written is scanned, for addresses of 6, 8 or 20 bytes. -/
theorem C78_round_trip (m : Raw) (d : Option Raw) (h : m.length = 6 ∨ m.length = 8 ∨ m.length = 20) :
    macScan d (macValue (some m)) = .ok (some m) := by rw [C78_text, C78_server, if_pos h]

/-- **C78** nil is NULL; NULL leaves the destination. -/
theorem C78_null (d : Option Raw) : macValue none = none ∧ macScan d none = .ok d := ⟨rfl, rfl⟩

theorem macText_chars (m : Raw) : NetChars (macText m) := by
  rw [macText, sepBy_eq]
  refine joinWith_chars (by simp) ?_
  intro t ht c hc
  obtain ⟨b, -, rfl⟩ := List.mem_map.mp ht
  rw [hexEncode_cons] at hc
  have key : ∀ n < 16, isHex (hexDigit n) = true := by decide
  rcases List.mem_cons.1 hc with rfl | hc
  · exact .inl (key _ (u8_hi b))
  · rcases List.mem_cons.1 hc with rfl | hc
    · exact .inl (key _ (Nat.mod_lt _ (by decide)))
    · cases hc

theorem macText_ne_nil (m : Raw) (h : m ≠ []) : macText m ≠ [] := by
  intro e
  have := macText_length m h
  rw [e] at this
  have : 0 < m.length := List.length_pos_iff.2 h
  simp at *
  omega

/-- **C78** The server reads an array of hardware addresses as the elements; nil among them is an empty text. -/
theorem C78_arr_in (ms : List Raw) (h : ∀ m ∈ ms, m ≠ []) :
    ∃ lit, macArrValue (some (ms.map some)) = some lit ∧
      arrayIn lit = some (ms.map fun m => macValue (some m)) := by
  refine ⟨_, arrValue_some _ _, ?_⟩
  rw [List.map_map]
  exact arrayIn_lit _ _ ms fun m hm => readsAs_net (macText_chars m) (macText_ne_nil m (h m hm))

/-- **C78** The server's array is scanned as the elements if all have 6, 8 or 20 bytes and none is NULL; otherwise
it is an error. -/
theorem C78_arr_server (xs : List (Option Raw)) (d : Option (List (Option Raw))) (h0 : some [] ∉ xs) :
    macArrScan d (some (arrayOut (xs.map fun x => x.map macOut))) =
      if ∀ x ∈ xs, ∃ m, x = some m ∧ (m.length = 6 ∨ m.length = 8 ∨ m.length = 20) then .ok (some xs)
      else .err .net := by
  have hne : ∀ m, some m ∈ xs → m ≠ [] := fun m hm e => h0 (e ▸ hm)
  have e : arrayOut (xs.map fun x => x.map macOut) =
      '{' :: (joinWith b!"," (xs.map fun x => (x.map macText).getD b!"NULL") ++ ['}']) := by
    rw [arrayOut, List.map_map, List.cons_append]
    congr 3
    refine List.map_congr_left fun x hx => ?_
    match x, hx with
    | none, _ => rfl
    | some m, hx =>
      show elemOut (some (macOut m)) = macText m
      rw [← macText_eq]
      exact elemOut_net (macText_chars m) (macText_ne_nil m (hne m hx))
  have hz : parseMAC b!"NULL" = .err .net := by decide
  have hf : ∀ x : Option Raw, ((parseMAC ((x.map macText).getD b!"NULL")).map some : SR (Option Raw)) =
      if ∃ m, x = some m ∧ (m.length = 6 ∨ m.length = 8 ∨ m.length = 20) then .ok x else .err .net := by
    intro x
    cases x with
    | none => rw [if_neg (by simp)]; rfl
    | some m =>
      rw [Option.map_some, Option.getD_some, parseMAC_text]
      by_cases hm : m.length = 6 ∨ m.length = 8 ∨ m.length = 20
      · rw [if_pos hm, if_pos ⟨m, rfl, hm⟩]; rfl
      · rw [if_neg hm, if_neg]
        · rfl
        · rintro ⟨m', e, h⟩
          cases e
          exact hm h
  rw [e, macArrScan, scanReset, comma_scan_congr _ _ (fun x : Option Raw =>
    if ∃ m, x = some m ∧ (m.length = 6 ∨ m.length = 8 ∨ m.length = 20) then .ok x else .err .net) xs]
  · split
    · rename_i hall
      have := mapRes_map (fun x : Option Raw => if ∃ m, x = some m ∧ (m.length = 6 ∨ m.length = 8 ∨ m.length = 20)
        then (.ok x : SR (Option Raw)) else .err .net) id id xs fun x hx => if_pos (hall x hx)
      rw [List.map_id] at this
      rw [this]; rfl
    · rename_i hall
      rw [mapRes_one_err _ .net]
      · rfl
      · intro x _
        split
        · exact .inr ⟨x, rfl⟩
        · exact .inl rfl
      · apply Classical.byContradiction
        intro hc
        refine hall fun x hx => Classical.byContradiction fun hn => hc ⟨x, hx, if_neg hn⟩
  · intro x hx
    match x, hx with
    | none, _ => decide
    | some m, _ => exact (netChars_plain (macText_chars m)).1
  · intro x hx
    match x, hx with
    | none, _ => decide
    | some m, hx => exact macText_ne_nil m (hne m hx)
  · exact fun x _ => hf x

/-- **C78** Arrays of addresses of 6, 8 or 20 bytes are scanned as they were written. -/
theorem C78_arr_round_trip (ms : List Raw) (d : Option (List (Option Raw)))
    (h : ∀ m ∈ ms, m.length = 6 ∨ m.length = 8 ∨ m.length = 20) :
    macArrScan d (macArrValue (some (ms.map some))) = .ok (some (ms.map some)) := by
  rw [macArrValue, arrValue_some, List.map_map, macArrScan, scanReset, comma_scan _ _ some ms]
  · rfl
  · exact fun m _ => (netChars_plain (macText_chars m)).1
  · intro m hm
    refine macText_ne_nil m ?_
    rintro rfl
    have := h _ hm
    simp at this
  · intro m hm
    show (parseMAC (macText m)).map some = _
    rw [parseMAC_text, if_pos (h m hm)]
    rfl

/-- **C78** nil is NULL and NULL is nil. -/
theorem C78_arr_null (d : Option (List (Option Raw))) : macArrValue none = none ∧ macArrScan d none = .ok none :=
  ⟨rfl, rfl⟩

/-- **C78**, a case: texts in the other formats of Go are read too; a nil element is written as an empty text that
the server rejects, and an address of 7 bytes is written but not scanned. -/
theorem C78_example :
    macValue (some [8, 0, 0x2b, 1, 2, 0xff]) = some b!"08:00:2b:01:02:ff" ∧
    macScan none (some b!"08:00:2b:01:02:03:04:FF") = .ok (some [8, 0, 0x2b, 1, 2, 3, 4, 0xff]) ∧
    macScan none (some b!"0800.2b01.02ff") = .ok (some [8, 0, 0x2b, 1, 2, 0xff]) ∧
    macScan none (some b!"08-00-2b-01-02-ff") = .ok (some [8, 0, 0x2b, 1, 2, 0xff]) ∧
    macScan none (some b!"08:00:2b:01:02-ff") = .err .net ∧
    macScan none (macValue (some [1, 2, 3, 4, 5, 6, 7])) = .err .net ∧
    macArrValue (some [none, some [8, 0, 0x2b, 1, 2, 0xff]]) = some b!"{,08:00:2b:01:02:ff}" ∧
    arrayIn b!"{,08:00:2b:01:02:ff}" = none ∧
    macArrScan none (some b!"{08:00:2b:01:02:ff,NULL}") = .err .net :=
  ⟨by decide, by decide, by decide, by decide, by decide, by decide, by decide, by decide, by decide⟩

end Verif.Pgsql
