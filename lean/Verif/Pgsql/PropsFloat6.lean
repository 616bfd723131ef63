import Verif.Pgsql.PropsFloat5

/- C80: which texts of numbers are refused. -/
namespace Verif.Pgsql
open PgServer

def Digits (s : Bytes) : Prop := ∀ c ∈ s, isDig 10 c = true

/-- Nothing, or `e` or `E`, a sign or none, and at least one digit. -/
def ExpText (s : Bytes) : Prop :=
  s = [] ∨ ∃ c sign ds, s = c :: (sign ++ ds) ∧ (c = 'e' ∨ c = 'E') ∧ (sign = [] ∨ sign = b!"-" ∨ sign = b!"+") ∧
    ds ≠ [] ∧ Digits ds

/-- A decimal number without sign: digits before or after a point, or both, and perhaps an exponent. -/
def DecimalText (s : Bytes) : Prop :=
  ∃ whole frac ex, s = whole ++ frac ++ ex ∧ Digits whole ∧ (frac = [] ∨ ∃ ds, frac = '.' :: ds ∧ Digits ds) ∧
    (∃ c ∈ whole ++ frac, isDig 10 c = true) ∧ ExpText ex

/-- A name of an infinity or of NaN, in any case, or a decimal number, with a sign or without. -/
def FloatText (s : Bytes) : Prop :=
  s.map Char.toLower = b!"nan" ∨
  ∃ sign r, s = sign ++ r ∧ (sign = [] ∨ sign = b!"-" ∨ sign = b!"+") ∧
    (r.map Char.toLower = b!"inf" ∨ r.map Char.toLower = b!"infinity" ∨ DecimalText r)

theorem mantissa_text (s : Bytes) (seen any : Bool) (n k : Nat) (m : Nat × Nat × Bytes)
    (h : mantissa seen any n k s = some m) :
    ∃ whole frac, s = whole ++ frac ++ m.2.2 ∧ Digits whole ∧
      (frac = [] ∨ seen = false ∧ ∃ ds, frac = '.' :: ds ∧ Digits ds) ∧
      (any = true ∨ ∃ c ∈ whole ++ frac, isDig 10 c = true) := by
  induction s generalizing seen any n k with
  | nil =>
    unfold mantissa at h
    split at h
    · rename_i ha
      cases h
      exact ⟨[], [], rfl, by simp [Digits], .inl rfl, .inl ha⟩
    · cases h
  | cons c r ih =>
    unfold mantissa at h
    split at h
    · rename_i hc
      obtain ⟨w, f, h1, h2, h3, h4⟩ := ih _ _ _ _ h
      have hf : f = [] := by simpa using h3
      subst hf
      refine ⟨[], '.' :: w, by rw [h1, hc.1]; simp, by simp [Digits], .inr ⟨hc.2, w, rfl, h2⟩, ?_⟩
      rcases h4 with h4 | ⟨x, hx, hd⟩
      · exact .inl h4
      · exact .inr ⟨x, by simp at hx ⊢; exact .inr hx, hd⟩
    · split at h
      · rename_i hd
        obtain ⟨w, f, h1, h2, h3, _⟩ := ih _ _ _ _ h
        refine ⟨c :: w, f, by rw [h1]; simp, ?_, h3, .inr ⟨c, by simp, hd⟩⟩
        intro x hx
        rcases List.mem_cons.1 hx with rfl | hx
        · exact hd
        · exact h2 x hx
      · split at h
        · rename_i ha
          cases h
          exact ⟨[], [], rfl, by simp [Digits], .inl rfl, .inl ha⟩
        · cases h

theorem expLoop_text (s : Bytes) (e e' : Nat) (h : expLoop e s = some e') : Digits s := by
  induction s generalizing e with
  | nil => simp [Digits]
  | cons c r ih =>
    unfold expLoop at h
    split at h
    · rename_i hd
      intro x hx
      rcases List.mem_cons.1 hx with rfl | hx
      · exact hd
      · exact ih _ h x hx
    · cases h

theorem expDigits_text (s : Bytes) (e : Nat) (h : expDigits s = some e) : s ≠ [] ∧ Digits s := by
  unfold expDigits at h
  split at h
  · cases h
  · rename_i hl
    exact ⟨fun he => hl (by rw [he]; rfl), expLoop_text s 0 e h⟩

theorem head_sign {r : Bytes} {c : Char} (h : r.head? = some c) : r = c :: r.tail := by
  cases r with
  | nil => cases h
  | cons x r => simp at h; simp [h]

theorem exponent_text (s : Bytes) (e : Nat × Nat) (h : exponent s = some e) : ExpText s := by
  cases s with
  | nil => exact .inl rfl
  | cons c r =>
    simp only [exponent] at h
    split at h
    · rename_i hc
      right
      split at h
      · rename_i hs
        obtain ⟨x, hx, _⟩ := Option.map_eq_some_iff.1 h
        obtain ⟨h1, h2⟩ := expDigits_text _ _ hx
        exact ⟨c, b!"-", r.tail, by rw [List.cons.injEq]; exact ⟨rfl, head_sign hs⟩, hc, .inr (.inl rfl), h1, h2⟩
      · split at h
        · rename_i hs
          obtain ⟨x, hx, _⟩ := Option.map_eq_some_iff.1 h
          obtain ⟨h1, h2⟩ := expDigits_text _ _ hx
          exact ⟨c, b!"+", r.tail, by rw [List.cons.injEq]; exact ⟨rfl, head_sign hs⟩, hc, .inr (.inr rfl), h1, h2⟩
        · obtain ⟨x, hx, _⟩ := Option.map_eq_some_iff.1 h
          obtain ⟨h1, h2⟩ := expDigits_text _ _ hx
          exact ⟨c, [], r, rfl, hc, .inl rfl, h1, h2⟩
    · cases h

theorem readDec_text (s : Bytes) (x : Nat × Nat) (h : readDec s = some x) : DecimalText s := by
  unfold readDec at h
  obtain ⟨m, hm, h⟩ := Option.bind_eq_some_iff.1 h
  obtain ⟨e, he, _⟩ := Option.map_eq_some_iff.1 h
  obtain ⟨w, f, h1, h2, h3, h4⟩ := mantissa_text _ _ _ _ _ _ hm
  refine ⟨w, f, m.2.2, h1, h2, ?_, ?_, exponent_text _ _ he⟩
  · rcases h3 with h3 | ⟨_, h3⟩
    · exact .inl h3
    · exact .inr h3
  · rcases h4 with h4 | h4
    · cases h4
    · exact h4

/-- **C80** A text that is no number and no name of an infinity or of NaN is refused. -/
theorem C80_refused (f : FFmt) (s : Bytes) (h : ¬ FloatText s) : parseFl f s = .err .syntax := by
  unfold parseFl
  have hsign : ∀ r, r = (if s.head? = some '-' ∨ s.head? = some '+' then s.tail else s) →
      (r.map Char.toLower = b!"inf" ∨ r.map Char.toLower = b!"infinity" ∨ DecimalText r) → False := by
    intro r hr hx
    apply h
    right
    split at hr
    · rename_i hs
      rcases hs with hs | hs
      · exact ⟨b!"-", r, by rw [hr]; exact head_sign hs, .inr (.inl rfl), hx⟩
      · exact ⟨b!"+", r, by rw [hr]; exact head_sign hs, .inr (.inr rfl), hx⟩
    · exact ⟨[], r, by rw [hr]; rfl, .inl rfl, hx⟩
  have h1 : specialFloat s = none := by
    unfold specialFloat
    rw [if_neg fun e => h (.inl e)]
    refine if_neg fun e => hsign _ rfl ?_
    rcases e with e | e
    · exact .inl e
    · exact .inr (.inl e)
  rw [h1]
  simp only
  cases h2 : readDec (if s.head? = some '-' ∨ s.head? = some '+' then s.tail else s) with
  | none => rfl
  | some x => exact (hsign _ rfl (.inr (.inr (readDec_text _ _ h2)))).elim

/-- A point alone, a sign alone, nothing, an exponent with other characters. -/
theorem C80_refused_example : ¬ FloatText b!"." ∧ ¬ FloatText b!"-" ∧ ¬ FloatText [] ∧ FloatText b!"-.5e+07" ∧
    parseFl double b!"1e2x" = .err .syntax ∧ parseFl double b!"." = .err .syntax ∧ parseFl double b!"-." = .err .syntax ∧
    parseFl double [] = .err .syntax := by
  have no : ∀ s, (∀ sign r, s = sign ++ r →
      (sign = [] ∨ sign = b!"-" ∨ sign = b!"+") → ¬ ∃ c ∈ r, isDig 10 c = true) →
      s.map Char.toLower ≠ b!"nan" → (∀ sign r, s = sign ++ r → (sign = [] ∨ sign = b!"-" ∨ sign = b!"+") →
        r.map Char.toLower ≠ b!"inf" ∧ r.map Char.toLower ≠ b!"infinity") → ¬ FloatText s := by
    rintro s h1 h2 h3 (h | ⟨sign, r, hs, hg, h | h | ⟨w, f, e, hr, _, _, ⟨c, hc, hd⟩, _⟩⟩)
    · exact h2 h
    · exact (h3 sign r hs hg).1 h
    · exact (h3 sign r hs hg).2 h
    · exact h1 sign r hs hg ⟨c, by rw [hr]; exact List.mem_append_left _ hc, hd⟩
  have small : ∀ (s sign r : Bytes), s = sign ++ r → s.length ≤ 1 →
      r.map Char.toLower ≠ b!"inf" ∧ r.map Char.toLower ≠ b!"infinity" := by
    intro s sign r hs hl
    have : r.length ≤ 1 := by
      have := congrArg List.length hs
      rw [List.length_append] at this
      omega
    constructor <;> intro he <;> have := congrArg List.length he <;> simp at this <;> omega
  have mem : ∀ (s sign r : Bytes), s = sign ++ r → (∀ c ∈ s, isDig 10 c = false) → ¬ ∃ c ∈ r, isDig 10 c = true := by
    rintro s sign r rfl hn ⟨c, hc, hd⟩
    rw [hn c (List.mem_append_right _ hc)] at hd
    cases hd
  refine ⟨?_, ?_, ?_, ?_, by decide +kernel, by decide +kernel, by decide +kernel, by decide +kernel⟩
  · exact no _ (fun sign r hs _ => mem _ sign r hs (by decide +kernel)) (by decide +kernel)
      fun sign r hs _ => small _ sign r hs (by decide)
  · exact no _ (fun sign r hs _ => mem _ sign r hs (by decide +kernel)) (by decide +kernel)
      fun sign r hs _ => small _ sign r hs (by decide)
  · exact no _ (fun sign r hs _ => mem _ sign r hs (by decide +kernel)) (by decide +kernel)
      fun sign r hs _ => small _ sign r hs (by decide)
  · exact .inr ⟨b!"-", b!".5e+07", rfl, .inr (.inl rfl), .inr (.inr ⟨[], b!".5", b!"e+07", rfl, by simp [Digits],
      .inr ⟨b!"5", rfl, by simp [Digits]; decide⟩, ⟨'5', by simp, by decide⟩,
      .inr ⟨'e', b!"+", b!"07", rfl, .inl rfl, .inr (.inr rfl), by simp, by simp [Digits]; decide⟩⟩)⟩

end Verif.Pgsql
