import Verif.Pgsql.Search
import Verif.Pgsql.SpecSearch
import Verif.Pgsql.PropsGeo
import Verif.Pgsql.PropsInts
import Verif.Pgsql.PropsText
/-
C75: text search values, json[] and xml[], single characters.
-/
namespace Verif.Pgsql

open Verif Verif.PgServer

/-! ### Lemmas: a list of words as text -/

theorem foldl_len {α : Type} (f : α → Nat) (xs : List α) (k : Nat) :
    xs.foldl (fun n x => n + f x) k = k + (xs.map f).sum := by
  induction xs generalizing k with
  | nil => simp
  | cons x xs ih => simp only [List.foldl_cons, ih, List.map_cons, List.sum_cons]; omega

theorem joinWith_length (sep : Char) (x : Bytes) (xs : List Bytes) :
    (joinWith [sep] (x :: xs)).length = xs.length + ((x :: xs).map List.length).sum := by
  induction xs generalizing x with
  | nil => simp [joinWith]
  | cons y ys ih =>
    rw [joinWith, List.length_append, List.length_append, ih y]
    simp only [List.length_cons, List.map_cons, List.sum_cons, List.length_nil]; omega

theorem tsVectorLoop_join (size : Nat) (x : Bytes) (xs : List Bytes) (pos : Nat)
    (h : pos + (joinWith [' '] (x :: xs)).length = size) :
    tsVectorLoop size pos (x :: xs) = joinWith [' '] (x :: xs) := by
  induction xs generalizing x pos with
  | nil =>
    rw [tsVectorLoop, if_neg (by rw [joinWith] at h; omega)]
    simp [tsVectorLoop, joinWith]
  | cons y ys ih =>
    rw [joinWith] at h ⊢
    simp only [List.length_append, List.length_singleton] at h
    rw [tsVectorLoop, if_pos (by omega), ih y _ (by omega)]
    simp

theorem fixedBuf_exact (s : Bytes) (n : Nat) (h : s.length = n) : fixedBuf n s = some s := by
  rw [fixedBuf, if_pos (by omega), h, Nat.sub_self, List.replicate_zero, List.append_nil]

theorem sepLoop_ne_nil (sep : Char) (cur s : Bytes) : sepLoop sep cur s ≠ [] := by
  induction s generalizing cur with
  | nil => simp [sepLoop]
  | cons c s ih =>
    rw [sepLoop]
    split
    · simp
    · exact ih _

theorem joinWith_cons_ne (sep x : Bytes) (xs : List Bytes) (h : xs ≠ []) :
    joinWith sep (x :: xs) = x ++ sep ++ joinWith sep xs := by
  cases xs with
  | nil => exact absurd rfl h
  | cons y ys => rfl

theorem sepLoop_join_any (sep : Char) (cur s : Bytes) :
    joinWith [sep] (sepLoop sep cur s) = cur ++ s := by
  induction s generalizing cur with
  | nil => simp [sepLoop, joinWith]
  | cons c s ih =>
    rw [sepLoop]
    split
    · rw [joinWith_cons_ne _ _ _ (sepLoop_ne_nil _ _ _), ih []]
      subst c; simp
    · rw [ih]; simp

theorem sepLoop_free (sep : Char) (cur s : Bytes) (h : sep ∉ cur) :
    ∀ x ∈ sepLoop sep cur s, sep ∉ x := by
  induction s generalizing cur with
  | nil => simpa [sepLoop] using h
  | cons c s ih =>
    rw [sepLoop]
    split
    · intro x hx
      rcases List.mem_cons.mp hx with rfl | hx
      · exact h
      · exact ih [] (by simp) x hx
    · rename_i hc
      exact ih _ (by simp [h, Ne.symm hc])

theorem parseVector_join_any (s : Bytes) : joinWith b!" " (parseVector s) = s := by
  rw [parseVector]
  split
  · rw [sepLoop_join_any]; rfl
  · rename_i h
    have : s = [] := List.eq_nil_of_length_eq_zero (by omega)
    rw [this]; rfl

theorem parseVector_free (s : Bytes) : ∀ x ∈ parseVector s, ' ' ∉ x := by
  rw [parseVector]
  split
  · exact sepLoop_free ' ' [] s (by simp)
  · simp

/-- When a list of words is what the parser finds in the words joined by spaces. -/
theorem parseVector_join_iff (xs : List Bytes) :
    parseVector (joinWith b!" " xs) = xs ↔ (∀ x ∈ xs, ' ' ∉ x) ∧ xs ≠ [[]] := by
  constructor
  · intro h
    refine ⟨fun x hx => ?_, ?_⟩
    · rw [← h] at hx
      exact parseVector_free _ x hx
    · rintro rfl
      revert h; decide
  · rintro ⟨h, h0⟩
    cases xs with
    | nil => rfl
    | cons x xs =>
      rw [parseVector, if_pos, sepLoop_join ' ' x xs h]
      rw [joinWith_length]
      cases xs with
      | nil =>
        cases x with
        | nil => exact absurd rfl h0
        | cons c x => simp
      | cons y ys => simp only [List.length_cons]; omega

/-! ### tsvector -/

theorem tsVectorSize_cons (x : Bytes) (xs : List Bytes) :
    tsVectorSize (x :: xs) = (joinWith b!" " (x :: xs)).length := by
  rw [tsVectorSize, foldl_len, joinWith_length]; simp

/-- **C75** The text written for a tsvector is its elements with a space between them; the buffer
is never too short or too long. -/
theorem C75_vector_text (xs : List Bytes) :
    tsVectorValue (some xs) = .text (joinWith b!" " xs) := by
  cases xs with
  | nil => rfl
  | cons x xs =>
    rw [tsVectorValue, if_neg (by simp), tsVectorLoop_join _ _ _ _ (by rw [tsVectorSize_cons]; simp),
      fixedBuf_exact _ _ (tsVectorSize_cons x xs).symm]
    rfl

/-- **C75** nil is NULL, and NULL is nil. -/
theorem C75_vector_null (d : Option (List Bytes)) :
    tsVectorValue none = .null ∧ tsVectorScan d none = .ok none := ⟨rfl, rfl⟩

/-- **C75** A written tsvector is scanned as the same slice exactly if no element has a space in
it and the slice is not one empty element. -/
theorem C75_vector_round_trip (xs : List Bytes) (d : Option (List Bytes)) :
    (tsVectorValue (some xs)).scan (tsVectorScan d) = .ok (some xs) ↔
      (∀ x ∈ xs, ' ' ∉ x) ∧ xs ≠ [[]] := by
  rw [C75_vector_text, Val.scan, tsVectorScan, scanReset, ← parseVector_join_iff]
  simp [Res.map]

/-- **C75** A scanned tsvector is written back as the text it was scanned from, whatever the
text. -/
theorem C75_vector_back (s : Bytes) (d : Option (List Bytes)) :
    ∃ xs, tsVectorScan d (some s) = .ok (some xs) ∧ tsVectorValue (some xs) = .text s :=
  ⟨parseVector s, rfl, by rw [C75_vector_text, parseVector_join_any]⟩

theorem digits_free (n : Nat) (c : Char) (h : c.isDigit = false) : c ∉ Nat.toDigits 10 n := by
  intro hm
  have := Nat.isDigit_of_mem_toDigits (by decide) (by decide) hm
  rw [h] at this; exact absurd this (by decide)

theorem joinWith_mem (sep : Bytes) (xs : List Bytes) (c : Char) (h : c ∈ joinWith sep xs) :
    c ∈ sep ∨ ∃ x ∈ xs, c ∈ x := by
  induction xs with
  | nil => simp [joinWith] at h
  | cons x xs ih =>
    cases xs with
    | nil => exact .inr ⟨x, by simp, by simpa [joinWith] using h⟩
    | cons y ys =>
      rw [joinWith] at h
      rcases List.mem_append.mp h with h | h
      · rcases List.mem_append.mp h with h | h
        · exact .inr ⟨x, by simp, h⟩
        · exact .inl h
      · rcases ih h with h | ⟨z, hz, hc⟩
        · exact .inl h
        · exact .inr ⟨z, by simp [hz], hc⟩

theorem lexeme_space (e : Lexeme) : ' ' ∈ e.out ↔ ' ' ∈ e.word := by
  have hp : ∀ p : Nat × Weight, ' ' ∉ Nat.toDigits 10 p.1 ++ p.2.out := by
    rintro ⟨n, w⟩ h
    rcases List.mem_append.mp h with h | h
    · exact digits_free n ' ' (by decide) h
    · cases w <;> simp [Weight.out] at h
  have ht : ' ' ∉ (if e.positions.length = 0 then []
     else ':' :: joinWith b!"," (e.positions.map fun p => Nat.toDigits 10 p.1 ++ p.2.out)) := by
    split
    · simp
    · intro h
      rcases List.mem_cons.mp h with h | h
      · exact absurd h (by decide)
      · rcases joinWith_mem _ _ _ h with h | ⟨x, hx, h⟩
        · exact absurd h (by decide)
        · obtain ⟨p, -, rfl⟩ := List.mem_map.mp hx
          exact hp p h
  rw [Lexeme.out]
  simp only [List.mem_append, List.mem_cons, List.cons_append, ht, or_false, List.not_mem_nil,
    List.mem_flatMap, show ¬ (' ' : Char) = '\'' by decide, false_or]
  constructor
  · rintro ⟨c, hc, h⟩
    split at h
    · rename_i hq
      have : c = ' ' := by simpa using Eq.symm (by simpa using h)
      exact this ▸ hc
    · have : c = ' ' := by simpa using Eq.symm (by simpa using h)
      exact this ▸ hc
  · intro h
    exact ⟨' ', h, by simp⟩

theorem lexeme_ne_nil (e : Lexeme) : e.out ≠ [] := by simp [Lexeme.out]

/-- **C75** The server's text of a tsvector is scanned lexeme by lexeme, each with its quotes and
positions, exactly if no word has a space in it. -/
theorem C75_vector_server (es : List Lexeme) (d : Option (List Bytes)) :
    tsVectorScan d (some (tsvectorOut es)) = .ok (some (es.map Lexeme.out)) ↔
      ∀ e ∈ es, ' ' ∉ e.word := by
  have : tsVectorScan d (some (tsvectorOut es)) = .ok (some (es.map Lexeme.out)) ↔
      parseVector (joinWith b!" " (es.map Lexeme.out)) = es.map Lexeme.out := by
    simp [tsVectorScan, scanReset, Res.map, tsvectorOut]
  rw [this, parseVector_join_iff]
  constructor
  · rintro ⟨h, -⟩ e he hw
    exact h e.out (List.mem_map.mpr ⟨e, he, rfl⟩) ((lexeme_space e).mpr hw)
  · intro h
    refine ⟨fun x hx => ?_, ?_⟩
    · obtain ⟨e, he, rfl⟩ := List.mem_map.mp hx
      exact fun hw => h e he ((lexeme_space e).mp hw)
    · intro h1
      cases es with
      | nil => simp at h1
      | cons e es =>
        rw [List.map_cons] at h1
        exact lexeme_ne_nil e (List.cons.inj h1).1

/-- **C75** A lexeme of two words is scanned as two elements, neither of which is a lexeme. -/
theorem C75_not_vector_server : ∃ es : List Lexeme,
    tsVectorScan none (some (tsvectorOut es)) = .ok (some [b!"'new", b!"york'"]) ∧ es.length = 1 :=
  ⟨[⟨b!"new york", []⟩], by decide, rfl⟩

example : tsVectorValue (some [b!"fat", b!"rat"]) = .text b!"fat rat" ∧
    tsVectorValue (some [b!"fat", b!"", b!""]) = .text b!"fat  " ∧
    tsVectorScan none (some b!"'cat':3,7A 'it''s'") = .ok (some [b!"'cat':3,7A", b!"'it''s'"]) ∧
    (tsVectorValue (some [[]])).scan (tsVectorScan none) = .ok (some []) ∧
    tsVectorScan none (some []) = .ok (some []) := by decide

end Verif.Pgsql
