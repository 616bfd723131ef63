import Verif.Pgsql.Lemmas3
/-
Lemmas about char[], integers as text, hexadecimal text and uuids.
-/
namespace Verif.Pgsql

open Verif Verif.PgServer

/-- A parser loop that consumes one element at a time reads a comma separated list
(version for loops that may panic and that may yield several results per element). -/
theorem join_loopO {α β : Type} (L : Bytes → Option (List β)) (g : α → Bytes) (k : α → List β)
    (xs : List α) (hnil : L [] = some []) (hcomma : ∀ t, L (',' :: t) = L t)
    (hg : ∀ x ∈ xs, ∀ t, AtComma t → L (g x ++ t) = (L t).map (k x ++ ·)) :
    L (joinWith b!"," (xs.map g)) = some (xs.flatMap k) := by
  induction xs with
  | nil => simpa [joinWith] using hnil
  | cons x xs ih =>
    have ih' := ih (fun y hy => hg y (by simp [hy]))
    cases xs with
    | nil =>
      have := hg x (by simp) [] (Or.inl rfl)
      simpa [joinWith, hnil] using this
    | cons y ys =>
      rw [List.map_cons, List.map_cons, joinWith, List.append_assoc, List.cons_append,
        List.nil_append, hg x (by simp) _ (Or.inr ⟨_, rfl⟩), hcomma, ← List.map_cons, ih']
      simp

/-! ### char[] -/

theorem arr2Loop_skip (k : Nat) (s : Bytes) : arr2Loop k s = arr2Loop 0 (s.drop k) := by
  induction s generalizing k with
  | nil => cases k <;> simp [arr2Loop]
  | cons c s ih =>
    cases k with
    | zero => rfl
    | succ k => rw [arr2Loop, ih]; simp

/-- Backspace and bell are left out of char[] literals. -/
def droppedChar (c : Char) : Bool := c = '\x08' || c = '\x07'

/-- The text of a kept character. -/
def charBody (enc : Char → Bytes) (c : Char) : Bytes :=
  if c = ' ' ∨ c = '\t' ∨ c = '\r' ∨ c = '\n' ∨ c = '\x0c' ∨ c = '\x0b' then ['"', c, '"']
  else if c = '"' ∨ c = '\\' then ['"', '\\', c, '"']
  else if c = ',' then ['"', ',', '"']
  else enc c

theorem charElem_eq (enc : Char → Bytes) (c : Char) :
    charElem enc c = if droppedChar c then [] else charBody enc c ++ [','] := by
  by_cases h : droppedChar c = true
  · rw [if_pos h]
    simp only [droppedChar, Bool.or_eq_true, decide_eq_true_eq] at h
    rcases h with rfl | rfl <;> simp [charElem]
  · rw [if_neg h]
    have h' : ¬ (c = '\x08' ∨ c = '\x07') := by simpa [droppedChar] using h
    simp only [charElem, charBody, if_neg h']
    split
    · rfl
    · split
      · rfl
      · split
        · rfl
        · rfl

theorem flatMap_charElem (enc : Char → Bytes) (cs : List Char) :
    cs.flatMap (charElem enc) =
      (cs.filter fun c => !droppedChar c).flatMap fun c => charBody enc c ++ [','] := by
  induction cs with
  | nil => rfl
  | cons c cs ih =>
    rw [List.flatMap_cons, ih, charElem_eq]
    cases h : droppedChar c <;> simp [h]

/-- The literal for a list with at least one kept character. -/
theorem charLit_eq (enc : Char → Bytes) (cs : List Char) (h : ∃ c ∈ cs, droppedChar c = false) :
    charLit enc cs =
      some ('{' :: (joinWith b!"," ((cs.filter fun c => !droppedChar c).map (charBody enc)) ++ ['}'])) := by
  have h0 : cs.length ≠ 0 := by
    obtain ⟨c, hc, -⟩ := h
    intro e
    rw [List.length_eq_zero_iff] at e
    simp [e] at hc
  rw [charLit, if_neg h0, flatMap_charElem]
  cases hf : cs.filter fun c => !droppedChar c with
  | nil =>
    obtain ⟨c, hc, hd⟩ := h
    have : c ∈ cs.filter fun c => !droppedChar c := by simp [hc, hd]
    rw [hf] at this
    simp at this
  | cons x xs =>
    rw [flatMap_comma, ← List.cons_append, setLast_append]
    rfl

/-- The literal for a list of dropped characters only. -/
theorem charLit_dropped (enc : Char → Bytes) (cs : List Char) (h0 : cs ≠ [])
    (h : ∀ c ∈ cs, droppedChar c = true) : charLit enc cs = some b!"}" := by
  have h1 : cs.length ≠ 0 := fun e => h0 (List.length_eq_zero_iff.mp e)
  rw [charLit, if_neg h1, flatMap_charElem]
  have : (cs.filter fun c => !droppedChar c) = [] := by
    apply List.filter_eq_nil_iff.mpr
    intro c hc; simp [h c hc]
  rw [this]
  have : setLast '}' b!"{" = some b!"}" := by decide
  exact this

theorem arr2Loop_plain (c : Char) (t : Bytes) (h1 : c ≠ '"') (h2 : c ≠ ',') :
    arr2Loop 0 (c :: t) = consO c (arr2Loop 0 t) := by
  cases t <;> simp [arr2Loop, h1, h2]

theorem arr2Loop_comma (t : Bytes) : arr2Loop 0 (',' :: t) = arr2Loop 0 t := by
  cases t <;> simp [arr2Loop]

theorem arr2Loop_quoted (c : Char) (t : Bytes) (h : c ≠ '\\') :
    arr2Loop 0 ('"' :: c :: '"' :: t) = consO c (arr2Loop 0 t) := by
  rw [arr2Loop]
  simp only [if_true, h, if_false]
  rw [arr2Loop_skip]; rfl

theorem arr2Loop_escaped (c : Char) (t : Bytes) :
    arr2Loop 0 ('"' :: '\\' :: c :: '"' :: t) = consO c (arr2Loop 0 t) := by
  rw [arr2Loop]
  simp only [if_true]
  rw [arr2Loop_skip]; rfl

theorem consO_eq {α : Type} (x : α) (r : Option (List α)) : consO x r = r.map ([x] ++ ·) := rfl

/-- An encoding of characters as bytes that never uses a quote or comma for another
character and is the identity on the ones the valuers treat specially. -/
structure EncOK (enc : Char → Bytes) : Prop where
  plain : ∀ c, c ≠ '"' → c ≠ ',' → ∀ d ∈ enc c, d ≠ '"' ∧ d ≠ ','
  special : ∀ c, c = ' ' ∨ c = '\t' ∨ c = '\r' ∨ c = '\n' ∨ c = '\x0c' ∨ c = '\x0b' ∨ c = '"' ∨
    c = '\\' ∨ c = ',' → enc c = [c]

theorem arr2Loop_bytes (s t : Bytes) (h : ∀ d ∈ s, d ≠ '"' ∧ d ≠ ',') :
    arr2Loop 0 (s ++ t) = (arr2Loop 0 t).map (s ++ ·) := by
  induction s with
  | nil => simp
  | cons c s ih =>
    rw [List.cons_append, arr2Loop_plain _ _ (h c (by simp)).1 (h c (by simp)).2,
      ih (fun d hd => h d (by simp [hd]))]
    cases arr2Loop 0 t <;> simp [consO]

theorem arr2Loop_charBody (enc : Char → Bytes) (he : EncOK enc) (c : Char) (t : Bytes) :
    arr2Loop 0 (charBody enc c ++ t) = (arr2Loop 0 t).map (enc c ++ ·) := by
  rw [charBody]
  split
  · rename_i h
    have hb : c ≠ '\\' := by rintro rfl; revert h; decide
    rw [he.special c (by rcases h with h | h | h | h | h | h <;> simp [h])]
    exact arr2Loop_quoted c t hb
  · split
    · rename_i h
      rw [he.special c (by rcases h with h | h <;> simp [h])]
      exact arr2Loop_escaped c t
    · split
      · rename_i h
        subst h
        rw [he.special ',' (by simp)]
        exact arr2Loop_quoted ',' t (by decide)
      · rename_i h1 h2 h3
        exact arr2Loop_bytes _ _ (he.plain c (fun e => h2 (Or.inl e)) h3)

theorem parseArray2_charLit (enc : Char → Bytes) (he : EncOK enc) (cs : List Char) (a b : Char) :
    parseArray2 (a :: (joinWith b!"," (cs.map (charBody enc)) ++ [b])) = some (cs.flatMap enc) := by
  simp only [parseArray2, dropEnds_wrap, Option.bind_eq_bind, Option.bind_some]
  exact join_loopO (arr2Loop 0) (charBody enc) enc cs (by simp [arr2Loop]) arr2Loop_comma
    (fun x _ t _ => arr2Loop_charBody enc he x t)

theorem encOK_id : EncOK (fun b => [b]) :=
  ⟨by intro c h1 h2 d hd; simp at hd; subst hd; exact ⟨h1, h2⟩, fun _ _ => rfl⟩

/-- UTF-8: characters below U+0080 are themselves, all bytes of the others are at least 0x80. -/
theorem encOK_utf8 : EncOK utf8 := by
  have low : ∀ c : Char, c.val.toNat ≤ 0x7f → utf8 c = [c] := by
    intro c h
    have hc : (String.utf8EncodeChar c) = [c.val.toNat.toUInt8] := by
      unfold String.utf8EncodeChar
      exact if_pos h
    simp only [utf8, hc, List.map_cons, List.map_nil]
    have : (Nat.toUInt8 c.val.toNat).toNat = c.toNat := by
      show c.val.toNat % 256 = c.val.toNat
      omega
    rw [this, Char.ofNat_toNat]
  have high : ∀ c : Char, 0x7f < c.val.toNat → ∀ d ∈ utf8 c, d ≠ '"' ∧ d ≠ ',' := by
    intro c h d hd
    simp only [utf8, List.mem_map] at hd
    obtain ⟨b, hb, rfl⟩ := hd
    have hb' : 128 ≤ b.toNat := by
      have hv := c.valid
      unfold String.utf8EncodeChar at hb
      simp only at hb
      have hlt : c.val.toNat < 0x110000 := by
        rcases hv with hv | hv
        · omega
        · exact hv.2
      split at hb
      · omega
      · split at hb
        · simp only [List.mem_cons, List.not_mem_nil, or_false] at hb
          rcases hb with rfl | rfl <;>
            simp only [UInt8.toNat_ofNat', Nat.reducePow] <;> omega
        · split at hb
          · simp only [List.mem_cons, List.not_mem_nil, or_false] at hb
            rcases hb with rfl | rfl | rfl <;>
              simp only [UInt8.toNat_ofNat', Nat.reducePow] <;> omega
          · simp only [List.mem_cons, List.not_mem_nil, or_false] at hb
            rcases hb with rfl | rfl | rfl | rfl <;>
              simp only [UInt8.toNat_ofNat', Nat.reducePow] <;> omega
    have hb2 : b.toNat < 256 := UInt8.toNat_lt b
    have hn : (Char.ofNat b.toNat).toNat = b.toNat := by
      have hv : b.toNat.isValidChar := Or.inl (by omega)
      rw [Char.ofNat, dif_pos hv]
      simp [Char.toNat, Char.ofNatAux]
    constructor
    · intro e; rw [e] at hn; have : ('"' : Char).toNat = 34 := rfl; omega
    · intro e; rw [e] at hn; have : (',' : Char).toNat = 44 := rfl; omega
  constructor
  · intro c h1 h2 d hd
    by_cases h : c.val.toNat ≤ 0x7f
    · rw [low c h] at hd
      simp only [List.mem_cons, List.not_mem_nil, or_false] at hd
      subst hd; exact ⟨h1, h2⟩
    · exact high c (by omega) d hd
  · intro c h
    apply low
    rcases h with h | h | h | h | h | h | h | h | h <;> subst h <;> decide

end Verif.Pgsql
