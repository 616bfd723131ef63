import Verif.Pgsql.Codecs
import Verif.Pgsql.Spec
/-
Lemmas about the array literals, text[] and hstore codecs.
-/
namespace Verif.Pgsql

open Verif Verif.PgServer

/-! ### Literals -/

theorem dropEnds_wrap (a b : Char) (m : Bytes) : dropEnds (a :: (m ++ [b])) = some m := by
  simp [dropEnds]

theorem flatMap_comma {α : Type} (f : α → Bytes) (x : α) (xs : List α) :
    (x :: xs).flatMap (fun x => f x ++ [',']) = joinWith b!"," ((x :: xs).map f) ++ [','] := by
  induction xs generalizing x with
  | nil => simp [joinWith]
  | cons y ys ih =>
    rw [List.flatMap_cons, ih]
    simp [joinWith]

theorem arrBody_cons {α : Type} (f : α → Bytes) (x : α) (xs : List α) :
    arrBody f (x :: xs) = ('{' :: joinWith b!"," ((x :: xs).map f)) ++ [','] := by
  rw [arrBody, flatMap_comma]; rfl

theorem setLast_append (c d : Char) (s : Bytes) : setLast c (s ++ [d]) = some (s ++ [c]) := by
  simp [setLast]

/-- Every array literal is the elements separated by commas, between braces. -/
theorem arrValue_some {α : Type} (f : α → Bytes) (xs : List α) :
    arrValue f (some xs) = some ('{' :: (joinWith b!"," (xs.map f) ++ ['}'])) := by
  cases xs with
  | nil => simp [arrValue, joinWith]
  | cons x xs =>
    simp only [arrValue, List.length_cons, Nat.succ_ne_zero, if_false]
    rw [arrBody_cons, setLast_append]; rfl

theorem length_joinWith_comma {α : Type} (f : α → Bytes) (x : α) (xs : List α) :
    (joinWith b!"," ((x :: xs).map f)).length = ((x :: xs).map fun x => (f x).length).sum + xs.length := by
  induction xs generalizing x with
  | nil => simp [joinWith]
  | cons y ys ih =>
    have := ih y
    simp only [List.map_cons, joinWith, List.length_append, List.length_cons, List.length_nil,
      List.sum_cons] at this ⊢
    omega

/-- The preallocating valuers produce the same text as the appending ones when the size they
compute is right. -/
theorem sizedValue_some {α : Type} (size : List α → Nat) (f : α → Bytes) (xs : List α)
    (h : xs ≠ [] → size xs = 1 + (xs.map fun x => (f x).length).sum + xs.length) :
    sizedValue size f (some xs) = .text ('{' :: (joinWith b!"," (xs.map f) ++ ['}'])) := by
  cases xs with
  | nil => simp [sizedValue, joinWith]
  | cons x xs =>
    simp only [sizedValue, List.length_cons, Nat.succ_ne_zero, if_false]
    have hs := h (by simp)
    have hl : (arrBody f (x :: xs)).length = size (x :: xs) := by
      rw [arrBody_cons, hs]
      have := length_joinWith_comma f x xs
      simp only [List.length_append, List.length_cons, List.length_nil] at this ⊢
      omega
    rw [fixedBuf, if_pos (by omega), hl, Nat.sub_self, List.replicate_zero, List.append_nil]
    simp only [Option.bind_some]
    rw [arrBody_cons, setLast_append]; rfl

/-! ### Comma separated arrays -/

theorem sepLoop_append (sep : Char) (x cur s : Bytes) (h : sep ∉ x) :
    sepLoop sep cur (x ++ s) = sepLoop sep (cur ++ x) s := by
  induction x generalizing cur with
  | nil => simp
  | cons c x ih =>
    simp only [List.mem_cons, not_or] at h
    rw [List.cons_append, sepLoop, if_neg (fun e => h.1 e.symm), ih _ h.2]
    simp

theorem sepLoop_join (sep : Char) (x : Bytes) (xs : List Bytes) (h : ∀ y ∈ x :: xs, sep ∉ y) :
    sepLoop sep [] (joinWith [sep] (x :: xs)) = x :: xs := by
  induction xs generalizing x with
  | nil =>
    have := sepLoop_append sep x [] [] (h x (by simp))
    simpa [joinWith, sepLoop] using this
  | cons y ys ih =>
    rw [joinWith, List.append_assoc, sepLoop_append _ _ _ _ (h x (by simp))]
    simp only [List.nil_append, List.cons_append, sepLoop, if_true]
    rw [ih y (fun z hz => h z (by simp [hz]))]

theorem joinWith_eq_nil {sep : Bytes} {xs : List Bytes} (hs : sep ≠ []) (h : joinWith sep xs = []) :
    xs = [] ∨ xs = [[]] := by
  match xs with
  | [] => simp
  | [x] => simp [joinWith] at h; simp [h]
  | x :: y :: r => simp [joinWith, hs] at h

theorem parseCommaArray_lit (a b : Char) (xs : List Bytes) (h : ∀ y ∈ xs, ',' ∉ y) (h1 : xs ≠ [[]]) :
    parseCommaArray (a :: (joinWith b!"," xs ++ [b])) = some xs := by
  simp only [parseCommaArray, dropEnds_wrap, Option.bind_eq_bind, Option.bind_some, pure]
  congr 1
  cases xs with
  | nil => simp [joinWith]
  | cons x xs =>
    have hne : joinWith b!"," (x :: xs) ≠ [] := by
      intro e
      rcases joinWith_eq_nil (by simp) e with e | e
      · simp at e
      · exact h1 e
    rw [if_pos (List.length_pos_iff.mpr hne)]
    exact sepLoop_join ',' x xs h

theorem mapRes_map {α β γ : Type} (f : β → SR γ) (g : α → β) (k : α → γ) (xs : List α)
    (h : ∀ x ∈ xs, f (g x) = .ok (k x)) : mapRes f (xs.map g) = .ok (xs.map k) := by
  induction xs with
  | nil => rfl
  | cons x xs ih =>
    simp only [List.map_cons, mapRes]
    rw [h x (by simp), ih (fun y hy => h y (by simp [hy]))]
    rfl

/-! ### Quoted strings -/

/-- A backslash before every character satisfying `p`. -/
def escWith (p : Char → Bool) (s : Bytes) : Bytes :=
  s.flatMap fun c => if p c then ['\\', c] else [c]

/-- `p` covers the two characters that must be escaped. -/
def Covers (p : Char → Bool) : Prop := p '"' = true ∧ p '\\' = true

theorem covers_escaped : Covers escaped := ⟨by decide, by decide⟩

theorem quote1_eq (s : Bytes) : quote1 s = '"' :: (escWith escaped s ++ ['"']) := by
  simp [quote1, escWith]

theorem covers_out : Covers (fun c => decide (c = '"' ∨ c = '\\')) := ⟨by decide, by decide⟩

theorem quoteOut_eq (s : Bytes) :
    quoteOut s = '"' :: (escWith (fun c => decide (c = '"' ∨ c = '\\')) s ++ ['"']) := by
  simp [quoteOut, escWith]

theorem escWith_cons (p : Char → Bool) (c : Char) (s : Bytes) :
    escWith p (c :: s) = (if p c then ['\\', c] else [c]) ++ escWith p s := by
  simp [escWith]

theorem not_special {p : Char → Bool} (hp : Covers p) {c : Char} (h : p c = false) :
    c ≠ '\\' ∧ c ≠ '"' := by
  constructor
  · rintro rfl; simp [hp.2] at h
  · rintro rfl; simp [hp.1] at h

theorem strQuoted_close (acc r : Bytes) (o b : Nat) :
    strQuoted acc o b ('"' :: r) = .closed acc o := by
  cases r <;> simp [strQuoted]

theorem strQuoted_other (acc r : Bytes) (o b : Nat) (c : Char) (h1 : c ≠ '\\') (h2 : c ≠ '"') :
    strQuoted acc o b (c :: r) = strQuoted (acc ++ [c]) (o + 1) b r := by
  cases r <;> simp [strQuoted, h1, h2]

theorem strQuoted_esc (p : Char → Bool) (hp : Covers p) (s acc t : Bytes) (o b : Nat) :
    strQuoted acc o b (escWith p s ++ '"' :: t) =
      .closed (acc ++ s) (o + (escWith p s).length) := by
  induction s generalizing acc o b with
  | nil =>
    simp [escWith, strQuoted_close]
  | cons c s ih =>
    rw [escWith_cons]
    by_cases h : p c = true
    · simp only [h, if_true, List.cons_append, List.nil_append, strQuoted]
      rw [ih]
      simp; omega
    · have h' : p c = false := by simpa using h
      obtain ⟨h1, h2⟩ := not_special hp h'
      simp only [h', Bool.false_eq_true, if_false, List.cons_append, List.nil_append]
      rw [strQuoted_other _ _ _ _ _ h1 h2, ih]
      simp; omega

theorem strArrLoop_skip (k : Nat) (s : Bytes) : strArrLoop k s = strArrLoop 0 (s.drop k) := by
  induction s generalizing k with
  | nil => cases k <;> simp [strArrLoop]
  | cons c s ih =>
    cases k with
    | zero => rfl
    | succ k => rw [strArrLoop, ih]; simp

theorem strArrLoop_comma (t : Bytes) : strArrLoop 0 (',' :: t) = strArrLoop 0 t := by
  simp [strArrLoop]

theorem strArrLoop_quoted (p : Char → Bool) (hp : Covers p) (s t : Bytes) :
    strArrLoop 0 ('"' :: (escWith p s ++ '"' :: t)) = some s :: strArrLoop 0 t := by
  rw [strArrLoop]
  simp only [show ('"' : Char) ≠ ',' by decide, if_false, if_true]
  rw [strQuoted_esc p hp]
  simp only [List.nil_append]
  rw [strArrLoop_skip]
  congr 2
  have : escWith p s ++ '"' :: t = (escWith p s ++ ['"']) ++ t := by simp
  rw [this, List.drop_append_of_le_length (by simp)]
  simp [List.drop_eq_nil_of_le]

theorem strArrLoop_null (t : Bytes) : strArrLoop 0 (b!"NULL" ++ t) = none :: strArrLoop 0 t := by
  simp [strArrLoop]

/-- The next byte, if any, is a comma. -/
def AtComma (t : Bytes) : Prop := t = [] ∨ ∃ r, t = ',' :: r

theorem takeWhile_ne_append {x t : Bytes} (h : ',' ∉ x) (ht : AtComma t) :
    (x ++ t).takeWhile (· ≠ ',') = x := by
  induction x with
  | nil => rcases ht with rfl | ⟨r, rfl⟩ <;> simp
  | cons c x ih =>
    simp only [List.mem_cons, not_or] at h
    rw [List.cons_append, List.takeWhile_cons, if_pos (by simpa using fun e : c = ',' => h.1 e.symm),
      ih h.2]

theorem strArrLoop_bare (s t : Bytes) (h0 : s ≠ []) (h1 : ',' ∉ s) (h2 : s.head? ≠ some '"')
    (h3 : (s ++ t).take 4 ≠ b!"NULL") (ht : AtComma t) :
    strArrLoop 0 (s ++ t) = some s :: strArrLoop 0 t := by
  cases s with
  | nil => exact absurd rfl h0
  | cons c s =>
    simp only [List.mem_cons, not_or] at h1
    simp only [List.head?_cons, ne_eq, Option.some.injEq] at h2
    rw [List.cons_append, strArrLoop, if_neg (fun e => h1.1 e.symm), if_neg h2,
      if_neg (fun e => h3 e.2), takeWhile_ne_append h1.2 ht]
    congr 1
    rw [strArrLoop_skip]
    rcases ht with rfl | ⟨r, rfl⟩
    · simp [List.drop_eq_nil_of_le]
    · rw [strArrLoop_comma]; congr 1
      rw [List.drop_append]; simp

/-- A parser loop that consumes one element at a time reads a comma separated list. -/
theorem join_loop {α β : Type} (L : Bytes → List β) (g : α → Bytes) (k : α → β) (xs : List α)
    (hnil : L [] = []) (hcomma : ∀ t, L (',' :: t) = L t)
    (hg : ∀ x ∈ xs, ∀ t, AtComma t → L (g x ++ t) = k x :: L t) :
    L (joinWith b!"," (xs.map g)) = xs.map k := by
  induction xs with
  | nil => simpa [joinWith] using hnil
  | cons x xs ih =>
    have ih' := ih (fun y hy => hg y (by simp [hy]))
    cases xs with
    | nil =>
      have := hg x (by simp) [] (Or.inl rfl)
      simpa [joinWith, hnil] using this
    | cons y ys =>
      rw [List.map_cons, List.map_cons, joinWith, List.append_assoc, List.cons_append,
        List.nil_append, hg x (by simp) _ (Or.inr ⟨_, rfl⟩), hcomma, ← List.map_cons, ih']
      rfl

theorem parseStringArray_lit {α : Type} (a b : Char) (g : α → Bytes) (k : α → Option Bytes)
    (xs : List α)
    (hg : ∀ x ∈ xs, ∀ t, AtComma t → strArrLoop 0 (g x ++ t) = k x :: strArrLoop 0 t) :
    parseStringArray (a :: (joinWith b!"," (xs.map g) ++ [b])) = some (xs.map k) := by
  simp only [parseStringArray, dropEnds_wrap, Option.bind_eq_bind, Option.bind_some, pure]
  congr 1
  exact join_loop (strArrLoop 0) g k xs (by simp [strArrLoop]) strArrLoop_comma hg

theorem strArrLoop_quote1 (s t : Bytes) : strArrLoop 0 (quote1 s ++ t) = some s :: strArrLoop 0 t := by
  rw [quote1_eq]
  have := strArrLoop_quoted escaped covers_escaped s t
  simpa using this

theorem strArrLoop_quoteOut (s t : Bytes) :
    strArrLoop 0 (quoteOut s ++ t) = some s :: strArrLoop 0 t := by
  rw [quoteOut_eq]
  have := strArrLoop_quoted _ covers_out s t
  simpa using this

theorem strArrLoop_textElem (x : Option Bytes) (t : Bytes) :
    strArrLoop 0 (textElem x ++ t) = x :: strArrLoop 0 t := by
  cases x with
  | none => exact strArrLoop_null t
  | some s => exact strArrLoop_quote1 s t

/-! ### hstore -/

/-- `pair[idx]` after appending all of `k`. -/
def PairSt.pushAll (s : PairSt) (k : Bytes) : PairSt := k.foldl PairSt.push s

theorem pushAll_cons (s : PairSt) (c : Char) (k : Bytes) :
    s.pushAll (c :: k) = (s.push c).pushAll k := rfl

/-- nil if nothing was appended. -/
def toOpt (k : Bytes) : Option Bytes := if k.length = 0 then none else some k

theorem toOpt_getD (k : Bytes) : (toOpt k).getD [] = k := by
  cases k <;> simp [toOpt]

theorem pushAll_key (s : PairSt) (h : s.idx = false) (k : Bytes) (a : Bytes) (ha : s.key = some a) :
    s.pushAll k = { s with key := some (a ++ k) } := by
  induction k generalizing s a with
  | nil => cases s; simp_all [PairSt.pushAll]
  | cons c k ih =>
    rw [pushAll_cons, ih (s.push c) (by simp [PairSt.push, h]) (a ++ [c]) (by simp [PairSt.push, h, ha])]
    simp [PairSt.push, h]

theorem pushAll_val (s : PairSt) (h : s.idx = true) (k : Bytes) (a : Bytes) (ha : s.val = some a) :
    s.pushAll k = { s with val := some (a ++ k) } := by
  induction k generalizing s a with
  | nil => cases s; simp_all [PairSt.pushAll]
  | cons c k ih =>
    rw [pushAll_cons, ih (s.push c) (by simp [PairSt.push, h]) (a ++ [c]) (by simp [PairSt.push, h, ha])]
    simp [PairSt.push, h]

theorem pushAll_start (k : Bytes) : ({} : PairSt).pushAll k = { key := toOpt k } := by
  cases k with
  | nil => rfl
  | cons c k =>
    rw [pushAll_cons, pushAll_key _ rfl k [c] rfl]
    rfl

theorem pushAll_start_val (o : Option Bytes) (v : Bytes) :
    ({ idx := true, key := o } : PairSt).pushAll v = { idx := true, key := o, val := toOpt v } := by
  cases v with
  | nil => rfl
  | cons c v =>
    rw [pushAll_cons, pushAll_val _ rfl v [c] rfl]
    rfl

theorem hsQuoted_close (s : PairSt) (r : Bytes) (o : Nat) :
    hsQuoted s o ('"' :: r) = some (s, o + 1) := by
  cases r <;> simp [hsQuoted]

theorem hsQuoted_other (s : PairSt) (r : Bytes) (o : Nat) (c : Char) (h1 : c ≠ '\\') (h2 : c ≠ '"') :
    hsQuoted s o (c :: r) = hsQuoted (s.push c) (o + 1) r := by
  cases r <;> simp [hsQuoted, h1, h2]

theorem hsQuoted_esc (p : Char → Bool) (hp : Covers p) (k t : Bytes) (s : PairSt) (o : Nat) :
    hsQuoted s o (escWith p k ++ '"' :: t) =
      some (s.pushAll k, o + (escWith p k).length + 1) := by
  induction k generalizing s o with
  | nil => simp [escWith, hsQuoted_close, PairSt.pushAll]
  | cons c k ih =>
    rw [escWith_cons]
    by_cases h : p c = true
    · simp only [h, if_true, List.cons_append, List.nil_append, hsQuoted]
      rw [ih, pushAll_cons]
      simp; omega
    · have h' : p c = false := by simpa using h
      obtain ⟨h1, h2⟩ := not_special hp h'
      simp only [h', Bool.false_eq_true, if_false, List.cons_append, List.nil_append]
      rw [hsQuoted_other _ _ _ _ h1 h2, ih, pushAll_cons]
      simp; omega

theorem hsLoop_skip (s : PairSt) (k : Nat) (a : Bytes) : hsLoop s k a = hsLoop s 0 (a.drop k) := by
  induction a generalizing k with
  | nil => cases k <;> simp [hsLoop]
  | cons c a ih =>
    cases k with
    | zero => rfl
    | succ k => rw [hsLoop, ih]; simp

theorem drop_esc (p : Char → Bool) (k t : Bytes) :
    (escWith p k ++ '"' :: t).drop ((escWith p k).length + 1) = t := by
  have : escWith p k ++ '"' :: t = (escWith p k ++ ['"']) ++ t := by simp
  rw [this, List.drop_append_of_le_length (by simp)]
  simp [List.drop_eq_nil_of_le]

theorem hsLoop_quoted (p : Char → Bool) (hp : Covers p) (k t : Bytes) (s : PairSt) :
    hsLoop s 0 ('"' :: (escWith p k ++ '"' :: t)) =
      (hsLoop (s.pushAll k).flip.2 0 t).map ((s.pushAll k).flip.1 ++ ·) := by
  rw [hsLoop]
  simp only [if_true]
  rw [hsQuoted_esc p hp]
  simp only [Nat.zero_add]
  rw [hsLoop_skip, drop_esc]

/-- A character that is neither a quote nor the N of NULL is passed over. -/
theorem hsLoop_other (s : PairSt) (c : Char) (t : Bytes) (h1 : c ≠ '"') (h2 : c ≠ 'N') :
    hsLoop s 0 (c :: t) = hsLoop s 0 t := by
  simp [hsLoop, h1, h2]

theorem hsLoop_sep (s : PairSt) (sep t : Bytes) (h1 : '"' ∉ sep) (h2 : 'N' ∉ sep) :
    hsLoop s 0 (sep ++ t) = hsLoop s 0 t := by
  induction sep with
  | nil => rfl
  | cons c sep ih =>
    simp only [List.mem_cons, not_or] at h1 h2
    rw [List.cons_append, hsLoop_other _ _ _ (fun e => h1.1 e.symm) (fun e => h2.1 e.symm),
      ih h1.2 h2.2]

theorem option_map_nil_append {α : Type} (o : Option (List α)) : o.map ([] ++ ·) = o := by
  cases o <;> rfl

/-- One `"key"=>"value"` pair. -/
theorem hsLoop_pair (p : Char → Bool) (hp : Covers p) (k v t : Bytes) :
    hsLoop {} 0 ('"' :: (escWith p k ++ '"' :: '=' :: '>' :: '"' :: (escWith p v ++ '"' :: t))) =
      (hsLoop {} 0 t).map ((toOpt k, toOpt v) :: ·) := by
  rw [hsLoop_quoted p hp, pushAll_start]
  simp only [PairSt.flip, Bool.false_eq_true, if_false]
  rw [option_map_nil_append, hsLoop_other _ _ _ (by decide) (by decide),
    hsLoop_other _ _ _ (by decide) (by decide), hsLoop_quoted p hp, pushAll_start_val]
  simp [PairSt.flip]

/-- One `"key"=>NULL` pair, followed by the end or by a comma. -/
theorem hsLoop_pair_null (p : Char → Bool) (hp : Covers p) (k t : Bytes) (ht : AtComma t) :
    hsLoop {} 0 ('"' :: (escWith p k ++ '"' :: '=' :: '>' :: (b!"NULL" ++ t))) =
      (hsLoop {} 0 t).map ((toOpt k, none) :: ·) := by
  rw [hsLoop_quoted p hp, pushAll_start]
  simp only [PairSt.flip, Bool.false_eq_true, if_false]
  rw [option_map_nil_append, hsLoop_other _ _ _ (by decide) (by decide),
    hsLoop_other _ _ _ (by decide) (by decide)]
  simp only [List.cons_append, List.nil_append]
  rw [hsLoop, if_neg (by decide), if_pos rfl, hsLoop_skip]
  rcases ht with rfl | ⟨r, rfl⟩
  · simp
  · rw [hsLoop_other {} ',' r (by decide) (by decide)]; simp

/-- Pairs printed with any quoting that covers quotes and backslashes, and separated by a comma
and possibly more, are read back. -/
theorem parseHStore_join (p : Char → Bool) (hp : Covers p) (sep : Bytes) (h1 : '"' ∉ sep)
    (h2 : 'N' ∉ sep) (es : List (Bytes × Option Bytes)) (q : Bytes → Bytes)
    (hq : ∀ s, q s = '"' :: (escWith p s ++ ['"'])) :
    parseHStore (joinWith (',' :: sep) (es.map fun e => q e.1 ++ b!"=>" ++ hsVal q e.2)) =
      some (es.map fun e => (toOpt e.1, e.2.bind toOpt)) := by
  have step : ∀ (e : Bytes × Option Bytes) (t : Bytes), AtComma t →
      hsLoop {} 0 ((q e.1 ++ b!"=>" ++ hsVal q e.2) ++ t) =
        (hsLoop {} 0 t).map ((toOpt e.1, e.2.bind toOpt) :: ·) := by
    rintro ⟨k, v⟩ t ht
    cases v with
    | none =>
      have := hsLoop_pair_null p hp k t ht
      simpa [hq, hsVal] using this
    | some v =>
      have := hsLoop_pair p hp k v t
      simpa [hq, hsVal] using this
  unfold parseHStore
  induction es with
  | nil => simp [joinWith, hsLoop]
  | cons e es ih =>
    cases es with
    | nil =>
      have := step e [] (Or.inl rfl)
      rw [List.append_nil] at this
      simp only [List.map_cons, List.map_nil, joinWith]
      rw [this]; simp [hsLoop]
    | cons e' es =>
      rw [List.map_cons, List.map_cons, joinWith, List.append_assoc,
        List.cons_append, step e _ (Or.inr ⟨_, rfl⟩), hsLoop_other _ _ _ (by decide) (by decide),
        hsLoop_sep _ _ _ h1 h2]
      simp only [List.map_cons] at ih
      rw [ih]
      rfl

theorem mapSet_new {ν : Type} (m : List (Bytes × ν)) (k : Bytes) (v : ν) (h : k ∉ m.map (·.1)) :
    mapSet m k v = m ++ [(k, v)] := by
  unfold mapSet
  congr 1
  apply List.filter_eq_self.mpr
  intro e he
  have : e.1 ≠ k := fun e' => h (e' ▸ List.mem_map_of_mem he)
  simpa using this

theorem foldl_mapSet {ν : Type} (es m : List (Bytes × ν)) (h : ((m ++ es).map (·.1)).Nodup) :
    es.foldl (fun m e => mapSet m e.1 e.2) m = m ++ es := by
  induction es generalizing m with
  | nil => simp
  | cons e es ih =>
    rw [List.foldl_cons, mapSet_new, ih]
    · simp
    · simpa using h
    · intro hm
      simp only [List.map_append, List.map_cons] at h
      have := (List.nodup_append.mp h).2.2 e.1 hm e.1 (by simp)
      exact this rfl

theorem fillMap_pairs (es : List (Bytes × Bytes)) (h : (es.map (·.1)).Nodup) :
    fillMap (es.map fun e => (toOpt e.1, toOpt e.2)) = es := by
  unfold fillMap
  rw [List.foldl_map]
  simp only [toOpt_getD]
  simpa using foldl_mapSet es [] (by simpa using h)

/-- What a nullable value comes back as: the empty string turns into NULL. -/
def nullEmpty (e : Bytes × Option Bytes) : Bytes × Option Bytes := (e.1, e.2.bind toOpt)

theorem fillPtrMap_pairs (es : List (Bytes × Option Bytes)) (h : (es.map (·.1)).Nodup) :
    fillPtrMap (es.map fun e => (toOpt e.1, e.2.bind toOpt)) = es.map nullEmpty := by
  have h' : ((es.map nullEmpty).map (·.1)).Nodup := by
    rw [List.map_map]; exact h
  have := foldl_mapSet (es.map nullEmpty) [] (by simpa using h')
  rw [List.foldl_map] at this
  unfold fillPtrMap
  rw [List.foldl_map]
  simpa [toOpt_getD, nullEmpty] using this

/-- The hstore literals are the pairs separated by commas. -/
theorem dropLastComma_flatMap {α : Type} (f : α → Bytes) (es : List α) :
    dropLastComma (es.flatMap fun e => f e ++ [',']) = joinWith b!"," (es.map f) := by
  cases es with
  | nil => rfl
  | cons e es => rw [flatMap_comma]; simp [dropLastComma]

end Verif.Pgsql
