import Verif.Generator.PropsGram2

/- Property C89: how conditions are read. -/
namespace Verif.Generator.Gram
open Verif.Analysis Verif.Postgres Verif.Generator.Lex Print

section
variable {α : Type} {f : α → Bytes}

/-- A value, and enough fuel to read it. -/
def Fits (f : α → Bytes) (m n : Nat) (v : VExpr α) : Prop :=
  ValGram f v ∧ (valToks f v).length ≤ n ∧ (valToks f v).length ≤ m + 1

section
variable {m n : Nat} {v : VExpr α} {rest : List Tok}

theorem Fits.begins (h : Fits f m n v) : Begins (valToks f v ++ rest) := (val_begins v h.1).append
theorem Fits.pos (h : Fits f m n v) : 1 ≤ (valToks f v).length := (val_begins v h.1).length

/-- Tokens that are read as one value, and enough fuel to read them. -/
structure Atomic (m n : Nat) (ts : List Tok) (x : Ex) : Prop where
  reads : Reads m n ts x
  begins : Begins ts
  len : ts.length ≤ n

theorem Fits.atomic (h : Fits f m n v) : Atomic m n (valToks f v) (valTree f v) :=
  ⟨val_reads v m n h.1 h.2.1 h.2.2, val_begins v h.1, h.2.1⟩

section
variable {L : List Tok} {X : Ex}

theorem Atomic.neg (h : Atomic m n L X) (hr : Ends cont1 rest) : negLevel (expr m) n (L ++ rest) = some (X, rest) := by
  rw [neg_of_cast h.begins.append]
  exact h.reads.castLevel h.len hr

theorem Atomic.op (h : Atomic m n L X) (hr : Ends cont2 rest) : opLevel (expr m) n (L ++ rest) = some (X, rest) := by
  have := h.begins.length
  have := h.len
  exact op_of_neg (by omega) (h.neg hr.to1) hr

theorem Atomic.range (h : Atomic m n L X) (hr : Ends cont3 rest) :
    rangeLevel (expr m) n (L ++ rest) = some (X, rest) :=
  range_of_op (h.op hr.to2) hr

theorem Atomic.cmp (h : Atomic m n L X) (hr : Ends cont4 rest) : cmpLevel (expr m) n (L ++ rest) = some (X, rest) :=
  cmp_of_range (h.range hr.to3) hr

end

theorem val_neg (h : Fits f m n v) (hr : Ends cont1 rest) :
    negLevel (expr m) n (valToks f v ++ rest) = some (valTree f v, rest) := h.atomic.neg hr

theorem val_op (h : Fits f m n v) (hr : Ends cont2 rest) :
    opLevel (expr m) n (valToks f v ++ rest) = some (valTree f v, rest) := h.atomic.op hr

theorem val_range (h : Fits f m n v) (hr : Ends cont3 rest) :
    rangeLevel (expr m) n (valToks f v ++ rest) = some (valTree f v, rest) := h.atomic.range hr

theorem val_cmp (h : Fits f m n v) (hr : Ends cont4 rest) :
    cmpLevel (expr m) n (valToks f v ++ rest) = some (valTree f v, rest) := h.atomic.cmp hr

theorem val_expr (h : ValGram f v) (hm : (valToks f v).length ≤ m) (hr : Ends cont7 rest) :
    expr m (valToks f v ++ rest) = some (valTree f v, rest) := by
  have := (val_begins v h).length
  cases m with
  | zero => omega
  | succ m => exact (val_reads v m (m + 1) h hm hm).expr (val_begins v h) hm hr

end

/-! ### The right side of an operator -/

theorem rhs_val {p e : Ps Ex} {x : Ex} {o : List Tok} {mk : Ex → Ex} {ts : List Tok} (h : Begins ts) :
    rhs p e x o mk ts = (p ts).map fun y => (mk y.1, y.2) := by
  unfold rhs
  split
  · next q r =>
    rw [if_neg]
    simp only [isQuant, Bool.or_eq_true, decide_eq_true_eq, not_or]
    rcases h with h | h
    · exact ⟨⟨start_ne h (by decide) (by decide), start_ne h (by decide) (by decide)⟩,
        start_ne h (by decide) (by decide)⟩
    · cases h
  · rfl

theorem rhs_quant {p e : Ps Ex} {x y : Ex} {o : List Tok} {mk : Ex → Ex} {ts rest : List Tok} (q : Quant)
    (h : e ts = some (y, .punct ')' :: rest)) :
    rhs p e x o mk (quantToks q ++ .punct '(' :: ts) = some (.quant o (quantWord q) x y, rest) := by
  cases q <;> simp [quantToks, kw, rhs, isQuant, h, close, quantWord]

/-- What is read on the right of the tokens `o` of an operator. -/
def rhsTree (f : α → Bytes) (o : List Tok) (mk : Ex → Ex) (x : Ex) : VExpr α → Ex
  | .quantified q r => .quant o (quantWord q) x (valTree f r)
  | r => mk (valTree f r)

theorem rhs_reads {p : Ps Ex} {m n : Nat} {x : Ex} {o : List Tok} {mk : Ex → Ex} {op : BinOp} {r : VExpr α}
    {rest : List Tok} (hg : RhsGram f op r) (hn : (valToks f r).length ≤ n) (hm : (valToks f r).length ≤ m + 1)
    (hp : Fits f m n r → p (valToks f r ++ rest) = some (valTree f r, rest)) :
    rhs p (expr m) x o mk (valToks f r ++ rest) = some (rhsTree f o mk x r, rest) := by
  have hval : ValGram f r → rhs p (expr m) x o mk (valToks f r ++ rest) = some (mk (valTree f r), rest) := by
    intro h
    rw [rhs_val (Fits.begins (m := m) (n := n) ⟨h, hn, hm⟩), hp ⟨h, hn, hm⟩]
    rfl
  cases r with
  | quantified q y =>
    have he : expr m (valToks f y ++ .punct ')' :: rest) = some (valTree f y, .punct ')' :: rest) := by
      refine val_expr hg.2 ?_ rfl
      cases q <;> simp [valToks, quantToks, kw, parens] at hm <;> omega
    have := rhs_quant (p := p) (x := x) (o := o) (mk := mk) q he
    simpa [valToks, parens, rhsTree] using this
  | _ => exact hval hg

/-- The tokens of a value of a right side begin one. -/
theorem rhs_pos {op : BinOp} {r : VExpr α} (h : RhsGram f op r) : 1 ≤ (valToks f r).length := by
  cases r with
  | quantified q y => cases q <;> simp [valToks, quantToks, kw, parens]
  | _ => exact (val_begins _ h).length

/-! ### Operators -/

section
variable {m n : Nat} {L : List Tok} {X : Ex} {r : VExpr α} {rest : List Tok}

/-- The operators of comparison. -/
theorem cmp_reads {op : BinOp} {o : Bytes} (ho : isCmp o = true) (hl : Atomic m n L X) (hg : RhsGram f op r)
    (hn : (valToks f r).length ≤ n) (hm : (valToks f r).length ≤ m + 1) (hr : Ends cont3 rest) :
    cmpLevel (expr m) n (L ++ (.op o :: (valToks f r ++ rest))) =
      some (rhsTree f [.op o] (.op o X) X r, rest) := by
  unfold cmpLevel
  rw [hl.range (by simp [Ends, cont3, cont2, cont1, cont0, isOther, ho])]
  simp only [Option.bind_some, ho, if_true]
  exact rhs_reads hg hn hm fun h => val_range h hr

/-- The operators of regular expressions. -/
theorem other_reads {op : BinOp} {o : Bytes} (ho : isOther o = true) (h2 : 2 ≤ n) (hl : Atomic m n L X)
    (hg : RhsGram f op r) (hn : (valToks f r).length ≤ n) (hm : (valToks f r).length ≤ m + 1)
    (hr : Ends cont2 rest) :
    opLevel (expr m) n (L ++ (.op o :: (valToks f r ++ rest))) =
      some (rhsTree f [.op o] (.op o X) X r, rest) := by
  unfold opLevel
  rw [hl.neg (by simp [Ends, cont1, cont0])]
  match n, h2 with
  | k + 2, _ =>
    simp only [Option.bind_some, opLoop, ho, if_true]
    rw [rhs_reads hg hn hm fun h => val_neg h hr.to1]
    simp only [Option.bind_some]
    unfold opLoop
    split
    · omega
    · next o r => rw [if_neg]; simp_all [Ends, cont2]
    · rfl

/-- LIKE and ILIKE. -/
theorem like_reads {op : BinOp} {w : Bytes} (not : Bool) (hw : w = b!"like" ∨ w = b!"ilike") (hl : Atomic m n L X)
    (hg : RhsGram f op r) (hn : (valToks f r).length ≤ n) (hm : (valToks f r).length ≤ m + 1)
    (hr : Ends cont2 rest) :
    rangeLevel (expr m) n (L ++ (notToks not ++ kw w) ++ (valToks f r ++ rest)) =
      some (rhsTree f (notToks not ++ kw w) (.like not w X) X r, rest) := by
  have key : rangeTail (expr m) n not X (.word w :: (valToks f r ++ rest)) =
      some (rhsTree f (notToks not ++ kw w) (.like not w X) X r, rest) := by
    simp only [rangeTail, hw, if_true]
    exact rhs_reads hg hn hm fun h => val_op h hr
  unfold rangeLevel
  cases not with
  | true =>
    rw [List.append_assoc, hl.op (by simp [Ends, notToks, kw, cont2, cont1, cont0])]
    simpa [notToks, kw] using key
  | false =>
    rw [List.append_assoc, hl.op (by rcases hw with rfl | rfl <;> rfl)]
    have : w ≠ b!"not" := by rintro rfl; revert hw; decide
    simpa [notToks, kw, this] using key

/-- SIMILAR TO. -/
theorem similar_reads (not : Bool) (hl : Atomic m n L X) (hg : Fits f m n r) (hr : Ends cont2 rest) :
    rangeLevel (expr m) n (L ++ (notToks not ++ kw b!"similar" ++ kw b!"to") ++ (valToks f r ++ rest)) =
      some (.like not b!"similar" X (valTree f r), rest) := by
  have key : rangeTail (expr m) n not X (.word b!"similar" :: .word b!"to" :: (valToks f r ++ rest)) =
      some (.like not b!"similar" X (valTree f r), rest) := by
    simp [rangeTail, val_op hg hr]
  unfold rangeLevel
  cases not with
  | true =>
    rw [List.append_assoc, hl.op (by simp [Ends, notToks, kw, cont2, cont1, cont0])]
    simpa [notToks, kw] using key
  | false =>
    rw [List.append_assoc, hl.op (by simp [Ends, notToks, kw, cont2, cont1, cont0])]
    simpa [notToks, kw] using key

/-- IS DISTINCT FROM. -/
theorem distinct_reads (not : Bool) (hl : Atomic m n L X) (hg : Fits f m n r) (hr : Ends cont4 rest) :
    isLevel (expr m) n (L ++ (kw b!"is" ++ notToks not ++ kw b!"distinct" ++ kw b!"from") ++
        (valToks f r ++ rest)) = some (.distinct not X (valTree f r), rest) := by
  unfold isLevel
  rw [List.append_assoc, hl.cmp (by simp [Ends, kw, cont4, cont3, cont2, cont1, cont0])]
  cases not <;> simp [notToks, kw, isTail, val_cmp hg hr]

/-- IS with a word. -/
theorem is_reads (not : Bool) (w : Bytes) (hw : w = b!"null" ∨ w = b!"true" ∨ w = b!"false" ∨ w = b!"unknown")
    (hl : Atomic m n L X) :
    isLevel (expr m) n (L ++ (kw b!"is" ++ notToks not ++ kw w) ++ rest) =
      some (.is not w X, rest) := by
  unfold isLevel
  rw [List.append_assoc, hl.cmp (by simp [Ends, kw, cont4, cont3, cont2, cont1, cont0])]
  have : w ≠ b!"not" := by rintro rfl; revert hw; decide
  cases not <;> simp [notToks, kw, isTail, hw, this]

/-- BETWEEN. -/
theorem between_reads {lo hi : VExpr α} (hl : Atomic m n L X) (hlo : Fits f m n lo) (hhi : Fits f m n hi)
    (hr : Ends cont2 rest) :
    rangeLevel (expr m) n (L ++ (kw b!"between" ++ (valToks f lo ++ (kw b!"and" ++ (valToks f hi ++ rest))))) =
      some (.between false X (valTree f lo) (valTree f hi), rest) := by
  unfold rangeLevel
  rw [hl.op (by simp [Ends, kw, cont2, cont1, cont0])]
  simp only [kw, List.cons_append, List.nil_append, Option.bind_some]
  rw [if_neg (by decide)]
  simp only [rangeTail]
  rw [if_neg (by decide), if_neg (by decide), if_pos trivial, val_op hlo (by simp [Ends, cont2, cont1, cont0])]
  simp [val_op hhi hr]

end

/-! ### Lists -/

/-- A list whose elements are read one by one. -/
theorem listOf_comma {β γ : Type} {p : Ps β} (toks : γ → List Tok) (tree : γ → β) {rest : List Tok}
    (hr : ∀ r, rest ≠ .punct ',' :: r) : ∀ (l : List γ) (n : Nat), l ≠ [] → l.length ≤ n →
    (∀ x ∈ l, p (toks x ++ rest) = some (tree x, rest)) →
    (∀ x ∈ l, ∀ r, p (toks x ++ .punct ',' :: r) = some (tree x, .punct ',' :: r)) →
    listOf p n (commaToks (l.map toks) ++ rest) = some (l.map tree, rest)
  | [], _, h, _, _, _ => absurd rfl h
  | [x], n, _, hn, h, _ => by
    cases n with
    | zero => simp at hn
    | succ n =>
      simp only [List.map, commaToks, listOf, h x (.head _), Option.bind_some]
  | x :: y :: l, n, _, hn, h, h' => by
    cases n with
    | zero => simp at hn
    | succ n =>
      have ih := listOf_comma toks tree hr (y :: l) n (by simp) (by simpa using hn)
        (fun z hz => h z (.tail _ hz)) fun z hz => h' z (.tail _ hz)
      simp only [List.map_cons] at ih
      simp only [List.map, commaToks, listOf, List.append_assoc, List.cons_append, h' x (.head _), Option.bind_some, ih,
        Option.map_some]

theorem comma_length {γ : Type} (toks : γ → List Tok) : ∀ (l : List γ), (∀ x ∈ l, 1 ≤ (toks x).length) →
    l.length ≤ (commaToks (l.map toks)).length
  | [], _ => by simp
  | [x], h => by simpa [commaToks] using h x (.head _)
  | x :: y :: l, h => by
    have ih := comma_length toks (y :: l) fun z hz => h z (.tail _ hz)
    have := h x (.head _)
    simp only [List.map, commaToks, List.length_append, List.length_cons] at ih ⊢
    omega

theorem comma_each {γ : Type} (toks : γ → List Tok) : ∀ (l : List γ), ∀ x ∈ l,
    (toks x).length ≤ (commaToks (l.map toks)).length
  | [], _, h => nomatch h
  | [x], _, h => by
    rcases List.mem_cons.1 h with rfl | h
    · simp [commaToks]
    · cases h
  | x :: y :: l, z, h => by
    rcases List.mem_cons.1 h with rfl | h
    · simp only [List.map, commaToks, List.length_append]; omega
    · have ih := comma_each toks (y :: l) z h
      simp only [List.map, commaToks, List.length_append, List.length_cons] at ih ⊢
      omega

theorem const_comma {t : Tok} (h : isConst t = true) : t ≠ .punct ',' := by rintro rfl; cases h

theorem listTree_const : ∀ (l : List Tok), (∀ x ∈ l, isConst x = true) →
    listTree (commaToks (l.map ([·]))) = l.map .const
  | [], _ => rfl
  | [x], h => by simp [commaToks, listTree, const_comma (h x (.head _))]
  | x :: y :: l, h => by
    have ih := listTree_const (y :: l) fun z hz => h z (.tail _ hz)
    simp only [listTree, List.map] at ih
    simpa [listTree, commaToks, const_comma (h x (.head _))] using ih

theorem const_expr {m : Nat} {t : Tok} {rest : List Tok} (hm : 1 ≤ m) (h : isConst t = true) (hr : Ends cont7 rest) :
    expr m (t :: rest) = some (.const t, rest) := by
  cases m with
  | zero => omega
  | succ m =>
    refine Reads.expr (ts := [t]) (.of_prim (by simp) fun rest _ => ?_) (.inl (const_start h)) (by simp) hr
    cases t <;> simp_all [prim, isConst]

/-- IN with a list of values. -/
theorem in_list {m n : Nat} {L : List Tok} {X : Ex} {ts rest : List Tok} (not : Bool) (hl : Atomic m n L X) (hne : ts ≠ [])
    (hc : ∀ x ∈ ts, isConst x = true) (hn : (commaToks (ts.map ([·]))).length ≤ n)
    (hm : (commaToks (ts.map ([·]))).length ≤ m) :
    rangeLevel (expr m) n (L ++ (notToks not ++ (kw b!"in" ++ (parens (commaToks (ts.map ([·]))) ++ rest)))) =
      some (.isIn not X (ts.map .const), rest) := by
  have hlen := comma_length (fun t : Tok => [t]) ts (by simp)
  have he := comma_each (fun t : Tok => [t]) ts
  have hm1 : 1 ≤ m := by
    cases ts with
    | nil => exact absurd rfl hne
    | cons t ts => have := he t (.head _); simp only [List.length_cons, List.length_nil] at this; omega
  have hlist := listOf_comma (p := expr m) (fun t : Tok => [t]) .const (rest := .punct ')' :: rest)
    (fun r h => by cases h) ts n hne (by omega) (fun x hx => const_expr hm1 (hc x hx) rfl)
    fun x hx r => const_expr hm1 (hc x hx) rfl
  have key : rangeTail (expr m) n not X
      (.word b!"in" :: .punct '(' :: (commaToks (ts.map ([·])) ++ .punct ')' :: rest)) =
      some (.isIn not X (ts.map .const), rest) := by
    simp only [rangeTail]
    rw [if_neg (by decide), if_neg (by decide), if_neg (by decide), if_pos trivial, hlist]
    simp only [Option.bind_some, close, Option.map_some]
  unfold rangeLevel
  rw [hl.op (by cases not <;> simp [Ends, notToks, kw, cont2, cont1, cont0])]
  cases not <;> simpa [notToks, kw, parens] using key

theorem in_reads {m n : Nat} {l : VExpr α} {a : α} {rest : List Tok} (not : Bool) (hl : Fits f m n l)
    (hg : ListText (f a)) (hn : (lex (f a)).length ≤ n) (hm : (lex (f a)).length ≤ m) :
    rangeLevel (expr m) n (valToks f l ++ (notToks not ++ (kw b!"in" ++ (parens (lex (f a)) ++ rest)))) =
      some (.isIn not (valTree f l) (listTree (lex (f a))), rest) := by
  obtain ⟨ts, hne, hc, ht⟩ := hg
  rw [ht] at hn hm ⊢
  rw [listTree_const ts hc]
  exact in_list not hl.atomic hne hc hn hm

/-! ### Conditions -/

theorem cond_begins (c : BExpr α) (h : CondGram f c) : Begins (condToks f c) := by
  cases c with
  | binary op l r => rw [condToks, List.append_assoc]; exact (val_begins l h.1).append
  | inList _ x a => rw [condToks]; simp only [List.append_assoc]; exact (val_begins x h.1).append
  | truth _ _ x => rw [condToks]; simp only [List.append_assoc]; exact (val_begins x h).append
  | null _ x => rw [condToks]; simp only [List.append_assoc]; exact (val_begins x h).append
  | between x lo hi => rw [condToks]; simp only [List.append_assoc]; exact (val_begins x h.1).append
  | bare x => rw [condToks]; exact val_begins x h
  | group l => rw [condToks]; exact .inr rfl

/-- From the comparison to a condition. -/
theorem not_of_cmp {e : Ps Ex} {n : Nat} {ts rest : List Tok} {x : Ex} (hn : 1 ≤ n) (hb : Begins ts)
    (h : cmpLevel e n ts = some (x, rest)) (hr : Ends cont5 rest) : notLevel e n n ts = some (x, rest) := by
  rw [not_of_is hn hb]
  exact is_of_cmp h hr

theorem rhs_fits {op : BinOp} {m n : Nat} {r : VExpr α} (hq : quantifiable op = false) (h : RhsGram f op r)
    (hn : (valToks f r).length ≤ n) (hm : (valToks f r).length ≤ m + 1) :
    Fits f m n r ∧ ∀ q x, r ≠ .quantified q x := by
  cases r with
  | quantified q x => rw [h.1] at hq; cases hq
  | _ => exact ⟨⟨h, hn, hm⟩, by simp⟩

theorem condTree_rhs {op : BinOp} (o : Bytes) (ho : binToks op = [.op o])
    (hb : ∀ x y, binTree op x y = .op o x y) (l r : VExpr α) :
    condTree f (.binary op l r) = rhsTree f [.op o] (.op o (valTree f l)) (valTree f l) r := by
  cases r <;> simp [condTree, rhsTree, hb, ho]

theorem binary_reads {op : BinOp} {m n : Nat} {l r : VExpr α} {rest : List Tok} (hl : ValGram f l)
    (hg : RhsGram f op r) (hn : (valToks f l ++ binToks op ++ valToks f r).length ≤ n)
    (hm : (valToks f l ++ binToks op ++ valToks f r).length ≤ m + 1) (hr : Ends cont5 rest) :
    notLevel (expr m) n n (valToks f l ++ binToks op ++ valToks f r ++ rest) =
      some (condTree f (.binary op l r), rest) := by
  simp only [List.length_append] at hn hm
  have hlf : Fits f m n l := ⟨hl, by omega, by omega⟩
  have hl1 := hlf.pos
  have hr1 := rhs_pos hg
  have hb : Begins (valToks f l ++ binToks op ++ valToks f r ++ rest) := by
    simp only [List.append_assoc]; exact hlf.begins
  have hcmp : ∀ o, binToks op = [.op o] → isCmp o = true → (∀ x y, binTree op x y = .op o x y) →
      notLevel (expr m) n n (valToks f l ++ binToks op ++ valToks f r ++ rest) =
        some (condTree f (.binary op l r), rest) := by
    intro o ho hc hbt
    refine not_of_cmp (by omega) hb ?_ hr
    rw [condTree_rhs o ho hbt, ho]
    simpa using cmp_reads hc hlf.atomic hg (by omega) (by omega) hr.to4.to3
  have hother : ∀ o, binToks op = [.op o] → isOther o = true → (∀ x y, binTree op x y = .op o x y) →
      notLevel (expr m) n n (valToks f l ++ binToks op ++ valToks f r ++ rest) =
        some (condTree f (.binary op l r), rest) := by
    intro o ho hc hbt
    refine not_of_cmp (by omega) hb (cmp_of_range (range_of_op ?_ hr.to4.to3) hr.to4) hr
    rw [condTree_rhs o ho hbt, ho]
    simpa using other_reads hc (by omega) hlf.atomic hg (by omega) (by omega) hr.to4.to3.to2
  cases op with
  | eq => exact hcmp _ rfl (by decide) fun _ _ => rfl
  | ne => exact hcmp _ rfl (by decide) fun _ _ => rfl
  | ne2 => exact hcmp _ rfl (by decide) fun _ _ => rfl
  | lt => exact hcmp _ rfl (by decide) fun _ _ => rfl
  | gt => exact hcmp _ rfl (by decide) fun _ _ => rfl
  | le => exact hcmp _ rfl (by decide) fun _ _ => rfl
  | ge => exact hcmp _ rfl (by decide) fun _ _ => rfl
  | «matches» => exact hother _ rfl (by decide) fun _ _ => rfl
  | matchesCI => exact hother _ rfl (by decide) fun _ _ => rfl
  | notMatches => exact hother _ rfl (by decide) fun _ _ => rfl
  | notMatchesCI => exact hother _ rfl (by decide) fun _ _ => rfl
  | like not =>
    refine not_of_cmp (by omega) hb (cmp_of_range ?_ hr.to4) hr
    have := like_reads not (.inl rfl) hlf.atomic hg (by omega) (by omega) hr.to4.to3.to2
    have ht : condTree f (.binary (.like not) l r) =
        rhsTree f (notToks not ++ kw b!"like") (.like not b!"like" (valTree f l)) (valTree f l) r := by
      cases r <;> simp [condTree, rhsTree, binTree, binToks]
    rw [ht]
    simpa [binToks] using this
  | ilike not =>
    refine not_of_cmp (by omega) hb (cmp_of_range ?_ hr.to4) hr
    have := like_reads not (.inr rfl) hlf.atomic hg (by omega) (by omega) hr.to4.to3.to2
    have ht : condTree f (.binary (.ilike not) l r) =
        rhsTree f (notToks not ++ kw b!"ilike") (.like not b!"ilike" (valTree f l)) (valTree f l) r := by
      cases r <;> simp [condTree, rhsTree, binTree, binToks]
    rw [ht]
    simpa [binToks] using this
  | similar not =>
    obtain ⟨hrf, hq⟩ := rhs_fits (n := n) (m := m) rfl hg (by omega) (by omega)
    refine not_of_cmp (by omega) hb (cmp_of_range ?_ hr.to4) hr
    have := similar_reads not hlf.atomic hrf hr.to4.to3.to2
    have ht : condTree f (.binary (.similar not) l r) = .like not b!"similar" (valTree f l) (valTree f r) := by
      cases r with
      | quantified q x => exact absurd rfl (hq q x)
      | _ => simp [condTree, binTree]
    rw [ht]
    simpa [binToks] using this
  | distinct not =>
    obtain ⟨hrf, hq⟩ := rhs_fits (n := n) (m := m) rfl hg (by omega) (by omega)
    rw [not_of_is (by omega) hb]
    have := distinct_reads not hlf.atomic hrf hr.to4
    have ht : condTree f (.binary (.distinct not) l r) = .distinct not (valTree f l) (valTree f r) := by
      cases r with
      | quantified q x => exact absurd rfl (hq q x)
      | _ => simp [condTree, binTree]
    rw [ht]
    simpa [binToks] using this

/-- What follows a condition in a list of them. -/
theorem rest_ends {l : BList α} (h : RestGram f l) {rest : List Tok} (hr : Ends cont7 rest) :
    Ends cont5 (condsToks f l ++ rest) := by
  cases l with
  | nil => exact hr.to6.to5
  | cons k x l =>
    cases k with
    | initial => exact absurd rfl h.1
    | and => show cont5 (.word b!"and") = false; rfl
    | or => show cont5 (.word b!"or") = false; rfl

mutual
/-- A condition is read as meant. -/
theorem cond_reads : ∀ (c : BExpr α) (m n : Nat) (rest : List Tok), CondGram f c → (condToks f c).length ≤ n →
    (condToks f c).length ≤ m + 1 → Ends cont5 rest →
    notLevel (expr m) n n (condToks f c ++ rest) = some (condTree f c, rest)
  | .binary op l r, m, n, rest, h, hn, hm, hr => by
    rw [condToks] at hn hm ⊢
    exact binary_reads h.1 h.2 hn hm hr
  | .inList not x a, m, n, rest, h, hn, hm, hr => by
    have hb := (cond_begins _ h).append (b := rest)
    rw [condToks] at hn hm hb ⊢
    simp only [List.length_append, parens, kw, List.length_cons, List.length_nil] at hn hm
    refine not_of_cmp (by omega) hb (cmp_of_range ?_ hr.to4) hr
    have := in_reads (rest := rest) not (⟨h.1, by omega, by omega⟩ : Fits f m n x) h.2 (by omega) (by omega)
    simp only [List.append_assoc]
    rw [condTree]
    exact this
  | .truth not t x, m, n, rest, h, hn, hm, hr => by
    have hb := (cond_begins _ h).append (b := rest)
    rw [condToks] at hn hm hb ⊢
    simp only [List.length_append, kw, List.length_cons, List.length_nil] at hn hm
    rw [not_of_is (by omega) hb]
    have := fun w hw => is_reads (rest := rest) not w hw (Fits.atomic (f := f) (m := m) (n := n) (v := x) ⟨h, by omega, by omega⟩)
    rw [condTree]
    cases t
    · simpa [truthToks, truthWord] using this b!"unknown" (by simp)
    · simpa [truthToks, truthWord] using this b!"true" (by simp)
    · simpa [truthToks, truthWord] using this b!"false" (by simp)
  | .null not x, m, n, rest, h, hn, hm, hr => by
    have hb := (cond_begins _ h).append (b := rest)
    rw [condToks] at hn hm hb ⊢
    simp only [List.length_append, kw, List.length_cons, List.length_nil] at hn hm
    rw [not_of_is (by omega) hb]
    have := is_reads (rest := rest) not b!"null" (by simp) (Fits.atomic (f := f) (m := m) (n := n) (v := x) ⟨h, by omega, by omega⟩)
    rw [condTree]
    simpa using this
  | .between x lo hi, m, n, rest, h, hn, hm, hr => by
    have hb := (cond_begins _ h).append (b := rest)
    rw [condToks] at hn hm hb ⊢
    simp only [List.length_append, kw, List.length_cons, List.length_nil] at hn hm
    refine not_of_cmp (by omega) hb (cmp_of_range ?_ hr.to4) hr
    have := between_reads (rest := rest) (Fits.atomic (f := f) (m := m) (n := n) (v := x) ⟨h.1, by omega, by omega⟩)
      (⟨h.2.1, by omega, by omega⟩ : Fits f m n lo) (⟨h.2.2, by omega, by omega⟩ : Fits f m n hi) hr.to4.to3.to2
    simp only [List.append_assoc]
    rw [condTree]
    exact this
  | .bare x, m, n, rest, h, hn, hm, hr => by
    rw [condToks] at hn hm ⊢
    rw [condTree]
    exact (val_reads x m n h hn hm).notLevel (val_begins x h) hn hr
  | .group l, m, n, rest, h, hn, hm, hr => by
    rw [condToks] at hn hm ⊢
    simp only [parens, List.length_append, List.length_cons, List.length_nil] at hn hm
    rw [condTree]
    refine Reads.notLevel (ts := parens (condsToks f l)) (.of_prim (by simp [parens]) fun rest _ => ?_) (.inr rfl)
      (by simp [parens]; omega) hr
    have := conds_reads l m (.punct ')' :: rest) h (by omega) rfl
    simp [parens, prim, this, close]
/-- A list of conditions is read as meant: AND binds more tightly than OR. -/
theorem conds_reads : ∀ (l : BList α) (m : Nat) (rest : List Tok), CondsGram f l → (condsToks f l).length ≤ m →
    Ends cont7 rest → expr m (condsToks f l ++ rest) = some (condsTree f l, rest)
  | .nil, _, _, h, _, _ => by rw [CondsGram] at h; exact h.elim
  | .cons k x l, m, rest, h, hm, hr => by
    rw [CondsGram] at h
    obtain ⟨rfl, hx, hl⟩ := h
    rw [condsToks] at hm ⊢
    have hp := (cond_begins x hx).length
    simp only [linkToks, List.nil_append, List.length_append] at hm ⊢
    cases m with
    | zero => omega
    | succ m =>
      unfold expr andLevel
      rw [List.append_assoc, cond_reads x m (m + 1) _ hx (by omega) (by omega) (rest_ends hl hr)]
      rw [condsTree]
      exact rest_reads l m (m + 1) (m + 1) none (condTree f x) rest hl (by omega) (by omega) (by omega) hr
theorem rest_reads : ∀ (l : BList α) (m j k : Nat) (o : Option Ex) (a : Ex) (rest : List Tok), RestGram f l →
    (condsToks f l).length ≤ m → (condsToks f l).length + 1 ≤ j → (condsToks f l).length + 1 ≤ k → Ends cont7 rest →
    ((andLoop (expr m) (m + 1) j a (condsToks f l ++ rest)).bind fun y =>
      orLoop (expr m) (m + 1) k (orTree o y.1) y.2) = some (restTree f o a l, rest)
  | .nil, m, j, k, o, a, rest, _, _, hj, hk, hr => by
    rw [condsToks] at *
    rw [List.nil_append, andLoop_ends (by omega) hr.to6, Option.bind_some, orLoop_ends (by omega) hr, restTree]
  | .cons .initial x l, _, _, _, _, _, _, h, _, _, _, _ => by rw [RestGram] at h; exact absurd rfl h.1
  | .cons .and x l, m, j, k, o, a, rest, h, hm, hj, hk, hr => by
    rw [RestGram] at h
    rw [condsToks] at *
    simp only [linkToks, kw, List.length_append, List.length_cons, List.length_nil] at hm hj hk
    cases j with
    | zero => omega
    | succ j =>
      have hc := cond_reads x m (m + 1) (condsToks f l ++ rest) h.2.1 (by omega) (by omega) (rest_ends h.2.2 hr)
      have := rest_reads l m j k o (.and a (condTree f x)) rest h.2.2 (by omega) (by omega) (by omega) hr
      rw [restTree]
      · simp only [linkToks, kw, List.append_assoc, List.cons_append, List.nil_append, andLoop, if_true, hc,
          Option.bind_some]
        exact this
      · simp
  | .cons .or x l, m, j, k, o, a, rest, h, hm, hj, hk, hr => by
    rw [RestGram] at h
    rw [condsToks] at *
    simp only [linkToks, kw, List.length_append, List.length_cons, List.length_nil] at hm hj hk
    cases j with
    | zero => omega
    | succ j =>
    cases k with
    | zero => omega
    | succ k =>
      have hc := cond_reads x m (m + 1) (condsToks f l ++ rest) h.2.1 (by omega) (by omega) (rest_ends h.2.2 hr)
      have := rest_reads l m (m + 1) k (some (orTree o a)) (condTree f x) rest h.2.2 (by omega) (by omega) (by omega) hr
      rw [restTree]
      simp only [linkToks, kw, List.append_assoc, List.cons_append, List.nil_append, andLoop]
      rw [if_neg (by decide)]
      simp only [Option.bind_some, orLoop, if_true, andLevel, hc]
      exact this
end

end

end Verif.Generator.Gram
