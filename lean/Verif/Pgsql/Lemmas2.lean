import Verif.Pgsql.Lemmas
/-
Lemmas about the hstore[] parser.
-/
namespace Verif.Pgsql

open Verif Verif.PgServer

/-- Three backslashes before every character satisfying `p`. -/
def esc2With (p : Char → Bool) (s : Bytes) : Bytes :=
  s.flatMap fun c => if p c then ['\\', '\\', '\\', c] else [c]

theorem esc2With_cons (p : Char → Bool) (c : Char) (s : Bytes) :
    esc2With p (c :: s) = (if p c then ['\\', '\\', '\\', c] else [c]) ++ esc2With p s := by
  simp [esc2With]

/-- A key or value between escaped quotes. -/
def q2With (p : Char → Bool) (s : Bytes) : Bytes :=
  '\\' :: '"' :: (esc2With p s ++ ['\\', '"'])

theorem quote2_eq (s : Bytes) : quote2 s = q2With escaped s := by
  simp [quote2, q2With, esc2With]

theorem hsaQuoted_skip (s : PairSt) (o n : Nat) (a : Bytes) :
    hsaQuoted s o n a = hsaQuoted s o 0 (a.drop n) := by
  induction a generalizing n with
  | nil => cases n <;> simp [hsaQuoted]
  | cons c a ih =>
    cases n with
    | zero => rfl
    | succ n => rw [hsaQuoted, ih]; simp

theorem hsaQuoted_close (s : PairSt) (o : Nat) (t : Bytes) :
    hsaQuoted s o 0 ('\\' :: '"' :: t) = some (s, some o) := by
  simp [hsaQuoted]

theorem hsaQuoted_other (s : PairSt) (o : Nat) (c : Char) (t : Bytes) (h : c ≠ '\\') :
    hsaQuoted s o 0 (c :: t) = hsaQuoted (s.push c) (o + 1) 0 t := by
  cases t <;> simp [hsaQuoted, h]

theorem hsaQuoted_esc (p : Char → Bool) (hp : Covers p) (k t : Bytes) (s : PairSt) (o : Nat) :
    hsaQuoted s o 0 (esc2With p k ++ '\\' :: '"' :: t) =
      some (s.pushAll k, some (o + (esc2With p k).length)) := by
  induction k generalizing s o with
  | nil => simp [esc2With, hsaQuoted_close, PairSt.pushAll]
  | cons c k ih =>
    rw [esc2With_cons]
    by_cases h : p c = true
    · simp only [h, if_true, List.cons_append, List.nil_append]
      rw [hsaQuoted]
      simp only [if_true]
      rw [hsaQuoted_skip]
      simp only [List.drop_succ_cons, List.drop_zero]
      rw [ih, pushAll_cons]
      simp; omega
    · have h' : p c = false := by simpa using h
      obtain ⟨h1, -⟩ := not_special hp h'
      simp only [h', Bool.false_eq_true, if_false, List.cons_append, List.nil_append]
      rw [hsaQuoted_other _ _ _ _ h1, ih, pushAll_cons]
      simp; omega

theorem hsaPairs_skip (s : PairSt) (o n : Nat) (a : Bytes) :
    hsaPairs s o n a = hsaPairs s o 0 (a.drop n) := by
  induction a generalizing n with
  | nil => cases n <;> simp [hsaPairs]
  | cons c a ih =>
    cases n with
    | zero => rfl
    | succ n => rw [hsaPairs, ih]; simp

/-- The pairs found so far in front of those found later. -/
def addPairs (ps : List (Option Bytes × Option Bytes))
    (r : Option (List (Option Bytes × Option Bytes) × PairSt × Option Nat)) :
    Option (List (Option Bytes × Option Bytes) × PairSt × Option Nat) :=
  match r with
  | none => none
  | some (rest, t, q) => some (ps ++ rest, t, q)

theorem addPairs_nil (r) : addPairs [] r = r := by
  rcases r with _ | ⟨a, b, c⟩ <;> rfl

theorem addPairs_addPairs (a b r) : addPairs a (addPairs b r) = addPairs (a ++ b) r := by
  rcases r with _ | ⟨x, y, z⟩ <;> simp [addPairs]

theorem hsaPairs_other (s : PairSt) (o : Nat) (c : Char) (t : Bytes) (h1 : c ≠ '\\') (h2 : c ≠ '"')
    (h3 : c ≠ 'N') : hsaPairs s o 0 (c :: t) = hsaPairs s (o + 1) 0 t := by
  simp only [hsaPairs, h1, false_and, if_false, hsaTail, h3, h2, decide_false, Bool.false_eq_true,
    Nat.add_zero]
  rcases hsaPairs s (o + 1) 0 t with _ | ⟨a, b, d⟩ <;> simp

theorem hsaPairs_end (s : PairSt) (o : Nat) (t : Bytes) :
    hsaPairs s o 0 ('"' :: t) = some ([], s, some o) := by
  simp [hsaPairs, hsaTail]

theorem hsaPairs_sep (s : PairSt) (sep : Bytes) (o : Nat) (t : Bytes)
    (h : ∀ c ∈ sep, c ≠ '\\' ∧ c ≠ '"' ∧ c ≠ 'N') :
    hsaPairs s o 0 (sep ++ t) = hsaPairs s (o + sep.length) 0 t := by
  induction sep generalizing o with
  | nil => rfl
  | cons c sep ih =>
    obtain ⟨h1, h2, h3⟩ := h c (by simp)
    rw [List.cons_append, hsaPairs_other _ _ _ _ h1 h2 h3, ih _ (fun d hd => h d (by simp [hd]))]
    simp [Nat.add_assoc, Nat.add_comm 1]

theorem drop_q2 (p : Char → Bool) (k t : Bytes) :
    ('\\' :: '"' :: (esc2With p k ++ '\\' :: '"' :: t)).drop ((esc2With p k).length + 4) = t := by
  have : '\\' :: '"' :: (esc2With p k ++ '\\' :: '"' :: t) =
      ('\\' :: '"' :: (esc2With p k ++ ['\\', '"'])) ++ t := by simp
  rw [this, List.drop_append]
  simp

/-- A key or value, followed by a character that neither ends the hstore nor starts NULL. -/
theorem hsaPairs_quoted (p : Char → Bool) (hp : Covers p) (k : Bytes) (c : Char) (t : Bytes)
    (s : PairSt) (o : Nat) (h2 : c ≠ '"') (h3 : c ≠ 'N') :
    hsaPairs s o 0 (q2With p k ++ c :: t) =
      addPairs (s.pushAll k).flip.1
        (hsaPairs (s.pushAll k).flip.2 (o + (q2With p k).length + 1) 0 t) := by
  have hl : (q2With p k).length = (esc2With p k).length + 4 := by simp [q2With]
  have e : q2With p k ++ c :: t = '\\' :: '"' :: (esc2With p k ++ '\\' :: '"' :: c :: t) := by
    simp [q2With]
  rw [e, hl, hsaPairs]
  simp only [List.cons_ne_nil, and_false, if_false, List.head?_cons, and_self, if_true,
    List.tail_cons]
  rw [hsaQuoted_esc p hp]
  simp only [Nat.zero_add]
  rw [drop_q2]
  simp only [hsaTail, h3, if_false, h2, decide_false, Bool.false_eq_true, Nat.add_zero,
    List.append_nil]
  rw [hsaPairs_skip]
  have d : List.drop ((esc2With p k).length + 4) ('"' :: (esc2With p k ++ '\\' :: '"' :: c :: t)) = t := by
    have : '"' :: (esc2With p k ++ '\\' :: '"' :: c :: t) =
        ('"' :: (esc2With p k ++ ['\\', '"', c])) ++ t := by simp
    rw [this, List.drop_append]
    simp
  rw [d]
  rcases hsaPairs (s.pushAll k).flip.2 (o + ((esc2With p k).length + 4) + 1) 0 t
    with _ | ⟨a, b, d⟩ <;> rfl

/-- A value that is the last in its hstore. -/
theorem hsaPairs_quoted_end (p : Char → Bool) (hp : Covers p) (k t : Bytes) (s : PairSt) (o : Nat) :
    hsaPairs s o 0 (q2With p k ++ '"' :: t) =
      some ((s.pushAll k).flip.1, (s.pushAll k).flip.2, some (o + (q2With p k).length)) := by
  have hl : (q2With p k).length = (esc2With p k).length + 4 := by simp [q2With]
  have e : q2With p k ++ '"' :: t = '\\' :: '"' :: (esc2With p k ++ '\\' :: '"' :: '"' :: t) := by
    simp [q2With]
  rw [e, hl, hsaPairs]
  simp only [List.cons_ne_nil, and_false, if_false, List.head?_cons, and_self, if_true,
    List.tail_cons]
  rw [hsaQuoted_esc p hp]
  simp only [Nat.zero_add]
  rw [drop_q2]
  simp [hsaTail]

theorem hsaPairs_null (s : PairSt) (c : Char) (t : Bytes) (o : Nat) (h : c ≠ '"') :
    hsaPairs s o 0 (b!"NULL" ++ c :: t) =
      addPairs [(s.key, s.val)] (hsaPairs {} (o + 5) 0 t) := by
  simp only [List.cons_append, List.nil_append, hsaPairs, show ('N' : Char) ≠ '\\' by decide,
    false_and, if_false, hsaTail, if_true, List.drop_succ_cons, List.drop_zero, h, decide_false,
    Bool.false_eq_true]
  rcases hsaPairs {} (o + 4 + 1) 0 t with _ | ⟨a, b, d⟩ <;> rfl

theorem hsaPairs_null_end (s : PairSt) (t : Bytes) (o : Nat) :
    hsaPairs s o 0 (b!"NULL" ++ '"' :: t) = some ([(s.key, s.val)], {}, some (o + 4)) := by
  simp [hsaPairs, hsaTail]

/-- The text of a pair. -/
def pairText (p : Char → Bool) (e : Bytes × Option Bytes) : Bytes :=
  q2With p e.1 ++ b!"=>" ++ hsVal (q2With p) e.2

theorem hsaPairs_key (p : Char → Bool) (hp : Covers p) (k t : Bytes) (o : Nat) :
    hsaPairs {} o 0 (q2With p k ++ '=' :: '>' :: t) =
      hsaPairs { idx := true, key := toOpt k } (o + (q2With p k).length + 2) 0 t := by
  rw [hsaPairs_quoted p hp _ _ _ _ _ (by decide) (by decide), pushAll_start]
  simp only [PairSt.flip, Bool.false_eq_true, if_false]
  rw [addPairs_nil, hsaPairs_other _ _ _ _ (by decide) (by decide) (by decide)]

theorem hsaPairs_pair (p : Char → Bool) (hp : Covers p) (e : Bytes × Option Bytes) (t : Bytes)
    (o : Nat) :
    hsaPairs {} o 0 (pairText p e ++ ',' :: t) =
      addPairs [(toOpt e.1, e.2.bind toOpt)] (hsaPairs {} (o + (pairText p e).length + 1) 0 t) := by
  obtain ⟨k, v⟩ := e
  have hl : (pairText p (k, v)).length = (q2With p k).length + 2 + (hsVal (q2With p) v).length := by
    simp [pairText]; omega
  have e' : pairText p (k, v) ++ ',' :: t = q2With p k ++ '=' :: '>' :: (hsVal (q2With p) v ++ ',' :: t) := by
    simp [pairText]
  rw [e', hsaPairs_key p hp, hl]
  cases v with
  | none =>
    rw [hsVal, hsaPairs_null _ _ _ _ (by decide)]
    simp [Nat.add_assoc]
  | some v =>
    rw [hsVal, hsaPairs_quoted p hp _ _ _ _ _ (by decide) (by decide), pushAll_start_val]
    simp [PairSt.flip, Nat.add_assoc]

theorem hsaPairs_pair_end (p : Char → Bool) (hp : Covers p) (e : Bytes × Option Bytes) (t : Bytes)
    (o : Nat) :
    hsaPairs {} o 0 (pairText p e ++ '"' :: t) =
      some ([(toOpt e.1, e.2.bind toOpt)], {}, some (o + (pairText p e).length)) := by
  obtain ⟨k, v⟩ := e
  have hl : (pairText p (k, v)).length = (q2With p k).length + 2 + (hsVal (q2With p) v).length := by
    simp [pairText]; omega
  have e' : pairText p (k, v) ++ '"' :: t = q2With p k ++ '=' :: '>' :: (hsVal (q2With p) v ++ '"' :: t) := by
    simp [pairText]
  rw [e', hsaPairs_key p hp, hl]
  cases v with
  | none =>
    rw [hsVal, hsaPairs_null_end]
    simp [Nat.add_assoc]
  | some v =>
    rw [hsVal, hsaPairs_quoted_end p hp, pushAll_start_val]
    simp [PairSt.flip, Nat.add_assoc]

/-- All pairs of one hstore. -/
theorem hsaPairs_join (p : Char → Bool) (hp : Covers p) (sep : Bytes)
    (hs : ∀ c ∈ sep, c ≠ '\\' ∧ c ≠ '"' ∧ c ≠ 'N') (es : List (Bytes × Option Bytes)) (t : Bytes)
    (o : Nat) :
    hsaPairs {} o 0 (joinWith (',' :: sep) (es.map (pairText p)) ++ '"' :: t) =
      some (es.map fun e => (toOpt e.1, e.2.bind toOpt), {},
        some (o + (joinWith (',' :: sep) (es.map (pairText p))).length)) := by
  induction es generalizing o with
  | nil => simp [joinWith, hsaPairs_end]
  | cons e es ih =>
    cases es with
    | nil => simpa [joinWith] using hsaPairs_pair_end p hp e t o
    | cons e' es =>
      rw [List.map_cons, List.map_cons, joinWith, List.append_assoc, List.append_assoc,
        List.cons_append, hsaPairs_pair p hp, hsaPairs_sep _ _ _ _ hs, ← List.map_cons, ih]
      simp [addPairs]; omega

theorem hsaLoop_skip (s : PairSt) (k : Nat) (a : Bytes) : hsaLoop s k a = hsaLoop s 0 (a.drop k) := by
  induction a generalizing k with
  | nil => cases k <;> simp [hsaLoop]
  | cons c a ih =>
    cases k with
    | zero => rfl
    | succ k => rw [hsaLoop, ih]; simp

theorem hsaLoop_comma (s : PairSt) (t : Bytes) : hsaLoop s 0 (',' :: t) = hsaLoop s 0 t := by
  simp [hsaLoop]

/-- A whole element: NULL or a quoted hstore. -/
def hsaText (p : Char → Bool) (sep : Bytes) : Option (List (Bytes × Option Bytes)) → Bytes
  | none => b!"NULL"
  | some es => '"' :: (joinWith (',' :: sep) (es.map (pairText p)) ++ ['"'])

theorem hsaLoop_elem (p : Char → Bool) (hp : Covers p) (sep : Bytes)
    (hs : ∀ c ∈ sep, c ≠ '\\' ∧ c ≠ '"' ∧ c ≠ 'N') (m : Option (List (Bytes × Option Bytes)))
    (t : Bytes) (ht : AtComma t) :
    hsaLoop {} 0 (hsaText p sep m ++ t) =
      (hsaLoop {} 0 t).map ((m.map fun es => es.map fun e => (toOpt e.1, e.2.bind toOpt)) :: ·) := by
  cases m with
  | none =>
    simp only [hsaText, List.cons_append, List.nil_append]
    rw [hsaLoop, if_neg (by decide), if_pos rfl, hsaLoop_skip]
    rcases ht with rfl | ⟨r, rfl⟩
    · simp
    · rw [hsaLoop_comma]; simp
  | some es =>
    have e : hsaText p sep (some es) ++ t =
        '"' :: (joinWith (',' :: sep) (es.map (pairText p)) ++ '"' :: t) := by simp [hsaText]
    rw [e, hsaLoop, if_pos rfl, hsaPairs_join p hp sep hs]
    simp only [Nat.zero_add]
    rw [hsaLoop_skip]
    congr 2
    have : joinWith (',' :: sep) (es.map (pairText p)) ++ '"' :: t =
        (joinWith (',' :: sep) (es.map (pairText p)) ++ ['"']) ++ t := by simp
    rw [this, List.drop_append]
    simp [List.drop_eq_nil_of_le]

theorem parseHStoreArr_lit (p : Char → Bool) (hp : Covers p) (sep : Bytes)
    (hs : ∀ c ∈ sep, c ≠ '\\' ∧ c ≠ '"' ∧ c ≠ 'N') (a b : Char)
    (ms : List (Option (List (Bytes × Option Bytes)))) :
    parseHStoreArr (a :: (joinWith b!"," (ms.map (hsaText p sep)) ++ [b])) =
      some (ms.map fun m => m.map fun es => es.map fun e => (toOpt e.1, e.2.bind toOpt)) := by
  simp only [parseHStoreArr, List.length_cons, Nat.succ_ne_zero, if_false, dropEnds_wrap,
    Option.bind_eq_bind, Option.bind_some]
  induction ms with
  | nil => simp [joinWith, hsaLoop]
  | cons m ms ih =>
    cases ms with
    | nil =>
      have := hsaLoop_elem p hp sep hs m [] (Or.inl rfl)
      rw [List.append_nil] at this
      simp only [List.map_cons, List.map_nil, joinWith]
      rw [this]; simp [hsaLoop]
    | cons m' ms =>
      rw [List.map_cons, List.map_cons, joinWith, List.append_assoc, List.cons_append,
        List.nil_append, hsaLoop_elem p hp sep hs m _ (Or.inr ⟨_, rfl⟩), hsaLoop_comma,
        ← List.map_cons, ih]
      rfl

/-- The model's elements in this form. -/
theorem hsaElem_eq (m : Option (List (Bytes × Option Bytes))) : hsaElem m = hsaText escaped [] m := by
  cases m with
  | none => rfl
  | some es =>
    have hp : hsaPair = pairText escaped := by
      funext e
      obtain ⟨k, v⟩ := e
      cases v <;> simp [hsaPair, pairText, hsVal, quote2_eq]
    cases es with
    | nil => simp [hsaElem, hsaText, hsaSize, joinWith]
    | cons e es =>
      have h0 : hsaSize (e :: es) ≠ 0 := by simp [hsaSize]
      rw [hsaElem, if_neg h0, flatMap_comma]
      rw [← List.cons_append, List.dropLast_concat, hp]
      simp [hsaText]

end Verif.Pgsql
