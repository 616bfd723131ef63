import Verif.Pgsql.Lemmas2
/-
Lemmas about the server's readers (`PgServer.arrayIn`, `PgServer.hstoreIn`) on quoted text.
-/
namespace Verif.PgServer

open Verif Verif.Pgsql

theorem arrayGo_quoted (p : Char → Bool) (hp : Covers p) (s acc t : Bytes) :
    arrayGo (.quoted acc) (escWith p s ++ '"' :: t) =
      (arrayGo .after t).map (some (acc ++ s) :: ·) := by
  induction s generalizing acc with
  | nil => simp [escWith, arrayGo]
  | cons c s ih =>
    rw [escWith_cons]
    by_cases h : p c = true
    · simp only [h, if_true, List.cons_append, List.nil_append, arrayGo]
      rw [ih]; simp
    · have h' : p c = false := by simpa using h
      obtain ⟨h1, h2⟩ := not_special hp h'
      simp only [h', Bool.false_eq_true, if_false, List.cons_append, List.nil_append, arrayGo, h1, h2]
      rw [ih]; simp

/-- A comma or the closing brace comes next. -/
def AtEnd (t : Bytes) : Prop := ∃ r, t = ',' :: r ∨ t = '}' :: r

/-- The text `g` is read as the element `x` wherever an element may stand. -/
def ReadsAs (g : Bytes) (x : Option Bytes) : Prop :=
  ∀ t, AtEnd t → arrayGo .elem (g ++ t) = (arrayGo .after t).map (x :: ·) ∧
    arrayGo .first (g ++ t) = (arrayGo .after t).map (x :: ·)

theorem readsAs_quoted (p : Char → Bool) (hp : Covers p) (s : Bytes) :
    ReadsAs ('"' :: (escWith p s ++ ['"'])) (some s) := by
  intro t _
  have e : ('"' :: (escWith p s ++ ['"'])) ++ t = '"' :: (escWith p s ++ '"' :: t) := by simp
  have hsp : isSpace '"' = false := by decide
  rw [e]
  constructor <;>
  · simp only [arrayGo, hsp, Bool.false_eq_true, if_false, if_true,
      show ('"' : Char) ≠ '}' by decide]
    rw [arrayGo_quoted p hp]; rfl

theorem arrayGo_after_end (x : Option Bytes) (acc t : Bytes) (hx : bareElem acc = x) (ht : AtEnd t) :
    arrayGo (.bare acc) t = (arrayGo .after t).map (x :: ·) := by
  obtain ⟨r, rfl | rfl⟩ := ht
  · simp [arrayGo, hx]
  · simp [arrayGo, hx]

/-- No character with a meaning in array literals. -/
def Plain (s : Bytes) : Prop :=
  ∀ c ∈ s, isSpace c = false ∧ c ≠ '"' ∧ c ≠ '\\' ∧ c ≠ '{' ∧ c ≠ '}' ∧ c ≠ ','

theorem arrayGo_bare (s acc t : Bytes) (hs : Plain s) :
    arrayGo (.bare acc) (s ++ t) = arrayGo (.bare (acc ++ s)) t := by
  induction s generalizing acc with
  | nil => simp
  | cons c s ih =>
    obtain ⟨-, h1, h2, h3, h4, h5⟩ := hs c (by simp)
    rw [List.cons_append, arrayGo]
    simp only [h1, h2, h3, h4, h5, if_false, or_self]
    rw [ih _ (fun d hd => hs d (by simp [hd]))]
    simp

theorem readsAs_plain (s : Bytes) (hs : Plain s) (h0 : s ≠ []) (x : Option Bytes)
    (hx : bareElem s = x) : ReadsAs s x := by
  intro t ht
  cases s with
  | nil => exact absurd rfl h0
  | cons c s =>
    obtain ⟨h0, h1, h2, h3, h4, h5⟩ := hs c (by simp)
    have := arrayGo_bare s [c] t (fun d hd => hs d (by simp [hd]))
    simp only [List.cons_append, arrayGo, h0, h1, h2, h3, h4, h5, Bool.false_eq_true, if_false,
      or_self, this]
    rw [List.nil_append, arrayGo_after_end x _ _ hx ht]
    simp

theorem plain_null : Plain b!"NULL" := by
  unfold Plain; decide

theorem readsAs_null : ReadsAs b!"NULL" none :=
  readsAs_plain _ plain_null (by simp) _ (by decide)

theorem arrayGo_join {α : Type} (g : α → Bytes) (k : α → Option Bytes) (x : α) (xs : List α)
    (hg : ∀ y ∈ x :: xs, ReadsAs (g y) (k y)) :
    arrayGo .elem (joinWith b!"," ((x :: xs).map g) ++ ['}']) = some ((x :: xs).map k) ∧
    arrayGo .first (joinWith b!"," ((x :: xs).map g) ++ ['}']) = some ((x :: xs).map k) := by
  induction xs generalizing x with
  | nil =>
    have := hg x (by simp) ['}'] ⟨[], Or.inr rfl⟩
    have hd : arrayGo .after ['}'] = some [] := by decide
    simp only [List.map_cons, List.map_nil, joinWith]
    rw [this.1, this.2, hd]
    simp
  | cons y ys ih =>
    have ih' := ih y (fun z hz => hg z (List.mem_cons_of_mem _ hz))
    have h := hg x (by simp) (',' :: (joinWith b!"," ((y :: ys).map g) ++ ['}'])) ⟨_, Or.inl rfl⟩
    have e : joinWith b!"," ((x :: y :: ys).map g) ++ ['}'] =
        g x ++ ',' :: (joinWith b!"," ((y :: ys).map g) ++ ['}']) := by
      simp [joinWith]
    have ha : arrayGo .after (',' :: (joinWith b!"," ((y :: ys).map g) ++ ['}'])) =
        some ((y :: ys).map k) := by
      rw [arrayGo, if_pos rfl, ih'.1]
    rw [e, h.1, h.2, ha]
    simp

theorem arrayIn_lit {α : Type} (g : α → Bytes) (k : α → Option Bytes) (xs : List α)
    (hg : ∀ y ∈ xs, ReadsAs (g y) (k y)) :
    arrayIn ('{' :: (joinWith b!"," (xs.map g) ++ ['}'])) = some (xs.map k) := by
  cases xs with
  | nil =>
    have : arrayIn b!"{}" = some [] := by decide
    simpa [joinWith] using this
  | cons x xs =>
    simp only [arrayIn, arrayGo, if_true]
    exact (arrayGo_join g k x xs hg).2

/-- Texts that are not quoted on output are plain. -/
theorem plain_of_not_needsQuote (s : Bytes) (h : needsQuote s = false) :
    Plain s ∧ s ≠ [] ∧ isNull s = false := by
  simp only [needsQuote, Bool.or_eq_false_iff, List.any_eq_false, Bool.or_eq_true, not_or,
    decide_eq_true_eq, Bool.not_eq_true] at h
  refine ⟨fun c hc => ?_, ?_, h.1.2⟩
  · obtain ⟨⟨⟨⟨⟨h1, h2⟩, h3⟩, h4⟩, h5⟩, h6⟩ := h.2 c hc
    exact ⟨h1, h2, h3, h4, h5, h6⟩
  · intro e; simp [e] at h

theorem trimEnd_plain (s : Bytes) (h : Plain s) : trimEnd s = s := by
  unfold trimEnd
  cases hr : s.reverse with
  | nil => simpa using hr
  | cons c r =>
    have hc : c ∈ s := by rw [← List.mem_reverse, hr]; simp
    rw [List.dropWhile_cons, (h c hc).1]
    simp [← hr]

theorem readsAs_elemOut (x : Option Bytes) : ReadsAs (elemOut x) x := by
  cases x with
  | none => exact readsAs_null
  | some s =>
    rw [elemOut]
    by_cases h : needsQuote s = true
    · rw [if_pos h, quoteOut_eq]
      exact readsAs_quoted _ covers_out s
    · have h' : needsQuote s = false := by simpa using h
      obtain ⟨h1, h2, h3⟩ := plain_of_not_needsQuote s h'
      rw [if_neg h]
      refine readsAs_plain s h1 h2 _ ?_
      simp [bareElem, trimEnd_plain s h1, h3]

/-- The server reads what it writes. -/
theorem arrayIn_arrayOut (xs : List (Option Bytes)) : arrayIn (arrayOut xs) = some xs := by
  have := arrayIn_lit elemOut id xs (fun y _ => readsAs_elemOut y)
  simpa [arrayOut] using this

/-! ### hstore -/

theorem hstoreGo_keyQ (p : Char → Bool) (hp : Covers p) (k acc t : Bytes) :
    hstoreGo (.keyQ acc) (escWith p k ++ '"' :: t) = hstoreGo (.eq (acc ++ k)) t := by
  induction k generalizing acc with
  | nil => simp [escWith, hstoreGo]
  | cons c k ih =>
    rw [escWith_cons]
    by_cases h : p c = true
    · simp only [h, if_true, List.cons_append, List.nil_append, hstoreGo]
      rw [ih]; simp
    · have h' : p c = false := by simpa using h
      obtain ⟨h1, h2⟩ := not_special hp h'
      simp only [h', Bool.false_eq_true, if_false, List.cons_append, List.nil_append, hstoreGo, h1, h2]
      rw [ih]; simp

theorem hstoreGo_valQ (p : Char → Bool) (hp : Covers p) (v k acc t : Bytes) :
    hstoreGo (.valQ k acc) (escWith p v ++ '"' :: t) =
      (hstoreGo .after t).map ((k, some (acc ++ v)) :: ·) := by
  induction v generalizing acc with
  | nil => simp [escWith, hstoreGo]
  | cons c v ih =>
    rw [escWith_cons]
    by_cases h : p c = true
    · simp only [h, if_true, List.cons_append, List.nil_append, hstoreGo]
      rw [ih]; simp
    · have h' : p c = false := by simpa using h
      obtain ⟨h1, h2⟩ := not_special hp h'
      simp only [h', Bool.false_eq_true, if_false, List.cons_append, List.nil_append, hstoreGo, h1, h2]
      rw [ih]; simp

def valTxt (p : Char → Bool) : Option Bytes → Bytes
  | some v => '"' :: (escWith p v ++ ['"'])
  | none => b!"NULL"

/-- The text of a pair. -/
def pairTxt (p : Char → Bool) (e : Bytes × Option Bytes) : Bytes :=
  '"' :: (escWith p e.1 ++ ['"']) ++ b!"=>" ++ valTxt p e.2

theorem hstoreGo_pair (p : Char → Bool) (hp : Covers p) (e : Bytes × Option Bytes) (t : Bytes)
    (ht : AtComma t) :
    hstoreGo .key (pairTxt p e ++ t) = (hstoreGo .after t).map (e :: ·) ∧
    hstoreGo .key0 (pairTxt p e ++ t) = (hstoreGo .after t).map (e :: ·) := by
  obtain ⟨k, v⟩ := e
  have hsp : isSpace '"' = false := by decide
  have main : hstoreGo (.keyQ []) (escWith p k ++ '"' :: '=' :: '>' :: (valTxt p v ++ t)) =
      (hstoreGo .after t).map ((k, v) :: ·) := by
    rw [hstoreGo_keyQ p hp]
    simp only [List.nil_append, hstoreGo, if_true]
    cases v with
    | some v =>
      have e : ('"' :: (escWith p v ++ ['"'])) ++ t = '"' :: (escWith p v ++ '"' :: t) := by simp
      simp only [valTxt, e, hstoreGo, hsp, Bool.false_eq_true, if_false, if_true]
      rw [hstoreGo_valQ p hp]; rfl
    | none =>
      have hN : isSpace 'N' = false := by decide
      have hU : isSpace 'U' = false := by decide
      have hL : isSpace 'L' = false := by decide
      have hnull : isNull b!"NULL" = true := by decide
      simp only [valTxt, List.cons_append, List.nil_append, hstoreGo, hN, hU, hL, Bool.false_eq_true,
        if_false, show ('N' : Char) ≠ '"' by decide, show ('U' : Char) ≠ ',' by decide,
        show ('L' : Char) ≠ ',' by decide]
      rcases ht with rfl | ⟨r, rfl⟩
      · simp [hstoreGo, hnull]
      · simp [hstoreGo, hnull]
  have e : pairTxt p (k, v) ++ t = '"' :: (escWith p k ++ '"' :: '=' :: '>' :: (valTxt p v ++ t)) := by
    simp [pairTxt, valTxt]
  rw [e]
  constructor
  · rw [hstoreGo, hsp]; simpa using main
  · rw [hstoreGo, hsp]; simpa using main

theorem hstoreGo_sep (sep t : Bytes) (h : ∀ c ∈ sep, isSpace c = true) :
    hstoreGo .key (sep ++ t) = hstoreGo .key t := by
  induction sep with
  | nil => rfl
  | cons c sep ih =>
    rw [List.cons_append, hstoreGo, if_pos (h c (by simp)), ih (fun d hd => h d (by simp [hd]))]

theorem hstoreGo_join (p : Char → Bool) (hp : Covers p) (sep : Bytes)
    (hs : ∀ c ∈ sep, isSpace c = true) (e : Bytes × Option Bytes) (es : List (Bytes × Option Bytes)) :
    hstoreGo .key (joinWith (',' :: sep) ((e :: es).map (pairTxt p))) = some (e :: es) ∧
    hstoreGo .key0 (joinWith (',' :: sep) ((e :: es).map (pairTxt p))) = some (e :: es) := by
  induction es generalizing e with
  | nil =>
    have := hstoreGo_pair p hp e [] (Or.inl rfl)
    rw [List.append_nil] at this
    simp only [List.map_cons, List.map_nil, joinWith]
    rw [this.1, this.2]
    simp [hstoreGo]
  | cons e' es ih =>
    have h := hstoreGo_pair p hp e (',' :: (sep ++ joinWith (',' :: sep) ((e' :: es).map (pairTxt p))))
      (Or.inr ⟨_, rfl⟩)
    have eq : joinWith (',' :: sep) ((e :: e' :: es).map (pairTxt p)) =
        pairTxt p e ++ ',' :: (sep ++ joinWith (',' :: sep) ((e' :: es).map (pairTxt p))) := by
      simp [joinWith]
    have ha : hstoreGo .after (',' :: (sep ++ joinWith (',' :: sep) ((e' :: es).map (pairTxt p)))) =
        some (e' :: es) := by
      rw [hstoreGo, if_pos rfl, hstoreGo_sep _ _ hs, (ih e').1]
    rw [eq, h.1, h.2, ha]
    simp

theorem hstoreIn_lit (p : Char → Bool) (hp : Covers p) (sep : Bytes)
    (hs : ∀ c ∈ sep, isSpace c = true) (es : List (Bytes × Option Bytes)) :
    hstoreIn (joinWith (',' :: sep) (es.map (pairTxt p))) = some es := by
  cases es with
  | nil => simp [joinWith, hstoreIn, hstoreGo]
  | cons e es => exact (hstoreGo_join p hp sep hs e es).2

theorem pairTxt_eq (p : Char → Bool) (q : Bytes → Bytes)
    (hq : ∀ s, q s = '"' :: (escWith p s ++ ['"'])) (e : Bytes × Option Bytes) :
    q e.1 ++ b!"=>" ++ hsVal q e.2 = pairTxt p e := by
  obtain ⟨k, v⟩ := e
  cases v <;> simp [pairTxt, valTxt, hsVal, hq]

/-- The server reads what it writes. -/
theorem hstoreIn_hstoreOut (es : List (Bytes × Option Bytes)) : hstoreIn (hstoreOut es) = some es := by
  have := hstoreIn_lit _ covers_out b!" " (by decide) es
  rw [← this, hstoreOut]
  congr 2
  apply List.map_congr_left
  rintro ⟨k, v⟩ _
  cases v <;> simp [pairTxt, valTxt, quoteOut_eq]

/-! ### hstore inside arrays -/

/-- The array reader takes one level of escaping off. -/
theorem arrayGo_quoted_raw (p : Char → Bool) (hp : Covers p) (k acc t : Bytes) :
    arrayGo (.quoted acc) (esc2With p k ++ t) = arrayGo (.quoted (acc ++ escWith p k)) t := by
  induction k generalizing acc with
  | nil => simp [esc2With, escWith]
  | cons c k ih =>
    rw [esc2With_cons, escWith_cons]
    by_cases h : p c = true
    · simp only [h, if_true, List.cons_append, List.nil_append, arrayGo]
      rw [ih]; simp
    · have h' : p c = false := by simpa using h
      obtain ⟨h1, h2⟩ := not_special hp h'
      simp only [h', Bool.false_eq_true, if_false, List.cons_append, List.nil_append, arrayGo, h1, h2]
      rw [ih]; simp

theorem arrayGo_q2With (p : Char → Bool) (hp : Covers p) (k acc t : Bytes) :
    arrayGo (.quoted acc) (q2With p k ++ t) =
      arrayGo (.quoted (acc ++ '"' :: (escWith p k ++ ['"']))) t := by
  have e : q2With p k ++ t = '\\' :: '"' :: (esc2With p k ++ '\\' :: '"' :: t) := by simp [q2With]
  rw [e]
  simp only [arrayGo, if_true]
  rw [arrayGo_quoted_raw p hp]
  simp [arrayGo]

theorem arrayGo_plainQ (s acc t : Bytes) (h : '"' ∉ s) (h' : '\\' ∉ s) :
    arrayGo (.quoted acc) (s ++ t) = arrayGo (.quoted (acc ++ s)) t := by
  induction s generalizing acc with
  | nil => simp
  | cons c s ih =>
    simp only [List.mem_cons, not_or] at h h'
    rw [List.cons_append, arrayGo, if_neg (fun e => h'.1 e.symm), if_neg (fun e => h.1 e.symm),
      ih _ h.2 h'.2]
    simp

theorem arrayGo_pairText (p : Char → Bool) (hp : Covers p) (e : Bytes × Option Bytes)
    (acc t : Bytes) :
    arrayGo (.quoted acc) (pairText p e ++ t) = arrayGo (.quoted (acc ++ pairTxt p e)) t := by
  obtain ⟨k, v⟩ := e
  rw [pairText, List.append_assoc, List.append_assoc, arrayGo_q2With p hp,
    arrayGo_plainQ b!"=>" _ _ (by decide) (by decide)]
  cases v with
  | none =>
    rw [hsVal, arrayGo_plainQ b!"NULL" _ _ (by decide) (by decide)]
    simp [pairTxt, valTxt]
  | some v =>
    rw [hsVal, arrayGo_q2With p hp]
    simp [pairTxt, valTxt]

theorem arrayGo_pairs (p : Char → Bool) (hp : Covers p) (sep : Bytes) (h : '"' ∉ sep)
    (h' : '\\' ∉ sep) (es : List (Bytes × Option Bytes)) (acc t : Bytes) :
    arrayGo (.quoted acc) (joinWith (',' :: sep) (es.map (pairText p)) ++ t) =
      arrayGo (.quoted (acc ++ joinWith (',' :: sep) (es.map (pairTxt p)))) t := by
  induction es generalizing acc with
  | nil => simp [joinWith]
  | cons e es ih =>
    cases es with
    | nil => simpa [joinWith] using arrayGo_pairText p hp e acc t
    | cons e' es =>
      have eq : joinWith (',' :: sep) ((e :: e' :: es).map (pairText p)) ++ t =
          pairText p e ++ ((',' :: sep) ++ (joinWith (',' :: sep) ((e' :: es).map (pairText p)) ++ t)) := by
        simp [joinWith]
      rw [eq, arrayGo_pairText p hp, arrayGo_plainQ (',' :: sep) _ _ (by simpa using h) (by simpa using h'),
        ih]
      simp [joinWith]

theorem readsAs_hsaText (p : Char → Bool) (hp : Covers p) (sep : Bytes) (h : '"' ∉ sep)
    (h' : '\\' ∉ sep) (m : Option (List (Bytes × Option Bytes))) :
    ReadsAs (hsaText p sep m) (m.map fun es => joinWith (',' :: sep) (es.map (pairTxt p))) := by
  cases m with
  | none => exact readsAs_null
  | some es =>
    intro t _
    have e : hsaText p sep (some es) ++ t =
        '"' :: (joinWith (',' :: sep) (es.map (pairText p)) ++ '"' :: t) := by simp [hsaText]
    have hsp : isSpace '"' = false := by decide
    rw [e]
    constructor <;>
    · simp only [arrayGo, hsp, Bool.false_eq_true, if_false, if_true,
        show ('"' : Char) ≠ '}' by decide]
      rw [arrayGo_pairs p hp sep h h']
      simp [arrayGo]

/-- Array output of hstore output is the doubly escaped form. -/
theorem escWith_append (p : Char → Bool) (a b : Bytes) : escWith p (a ++ b) = escWith p a ++ escWith p b := by
  simp [escWith]

theorem escWith_none (p : Char → Bool) (s : Bytes) (h : ∀ c ∈ s, p c = false) : escWith p s = s := by
  induction s with
  | nil => rfl
  | cons c s ih =>
    rw [escWith_cons, h c (by simp), ih (fun d hd => h d (by simp [hd]))]; rfl

def pOut (c : Char) : Bool := decide (c = '"' ∨ c = '\\')

theorem escWith_escWith (k : Bytes) : escWith pOut (escWith pOut k) = esc2With pOut k := by
  induction k with
  | nil => rfl
  | cons c k ih =>
    rw [escWith_cons, escWith_append, ih, esc2With_cons]
    congr 1
    by_cases h : pOut c = true
    · have hb : pOut '\\' = true := by decide
      simp [h, escWith, hb]
    · simp [h, escWith]

theorem escWith_quoteOut (k : Bytes) : escWith pOut (quoteOut k) = q2With pOut k := by
  have hq : pOut '"' = true := by decide
  have : quoteOut k = '"' :: (escWith pOut k ++ ['"']) := quoteOut_eq k
  rw [this, escWith_cons, escWith_append, escWith_escWith]
  simp [hq, q2With, escWith]

theorem escWith_joinWith (p : Char → Bool) (sep : Bytes) (hs : ∀ c ∈ sep, p c = false)
    (xs : List Bytes) : escWith p (joinWith sep xs) = joinWith sep (xs.map (escWith p)) := by
  induction xs with
  | nil => rfl
  | cons x xs ih =>
    cases xs with
    | nil => rfl
    | cons y ys =>
      rw [joinWith, escWith_append, escWith_append, ih, escWith_none p sep hs]
      rfl

theorem elemOut_hstoreOut (es : List (Bytes × Option Bytes)) :
    elemOut (some (hstoreOut es)) = hsaText pOut b!" " (some es) := by
  have hn : needsQuote (hstoreOut es) = true := by
    cases es with
    | nil => decide
    | cons e es =>
      have hm : '"' ∈ hstoreOut (e :: es) := by
        cases es with
        | nil => simp [hstoreOut, joinWith, quoteOut]
        | cons e' es => simp [hstoreOut, joinWith, quoteOut]
      simp only [needsQuote, Bool.or_eq_true, List.any_eq_true]
      right
      exact ⟨'"', hm, by decide⟩
  rw [elemOut, if_pos hn]
  have : quoteOut (hstoreOut es) = '"' :: (escWith pOut (hstoreOut es) ++ ['"']) := quoteOut_eq _
  rw [this, hsaText, hstoreOut, escWith_joinWith _ _ (by decide), List.map_map]
  congr 4
  funext ⟨k, v⟩
  cases v with
  | none =>
    simp only [Function.comp, escWith_append, escWith_quoteOut, pairText, hsVal]
    rw [escWith_none _ b!"=>" (by decide), escWith_none _ b!"NULL" (by decide)]
  | some v =>
    simp only [Function.comp, escWith_append, escWith_quoteOut, pairText, hsVal]
    rw [escWith_none _ b!"=>" (by decide)]

end Verif.PgServer
