import Verif.Analysis.Expr
import Verif.Filter.Props

/-
Property C31: predicate expressions split into left-hand side, operator, quantifier and
right-hand side.
-/
namespace Verif.Analysis
open Verif.Filter (isSpace trimSpace trimLeft)

/-! ### Specification -/

/-- The operators written with symbols. -/
def symbolOps : List Bytes :=
  [b!"=", b!"<>", b!"!=", b!"<", b!">", b!"<=", b!">=", b!"~", b!"~*", b!"!~", b!"!~*"]

/-- The operators written with words: `is` or `not` and an adjective. -/
def wordOps : List Bytes :=
  [b!"isbetween", b!"isbetweensym", b!"isdistinct", b!"isfalse", b!"isilike", b!"isin", b!"islike",
   b!"isnull", b!"issimilar", b!"istrue", b!"isunknown",
   b!"notbetween", b!"notbetweensym", b!"notdistinct", b!"notfalse", b!"notilike", b!"notin",
   b!"notlike", b!"notnull", b!"notsimilar", b!"nottrue", b!"notunknown"]

/-- White space only. -/
def Blank (s : Bytes) : Prop := ∀ c ∈ s, isSpace c = true

/-- An operand that cannot be mistaken: not empty, no white space, no operator character. -/
def Operand (s : Bytes) : Prop :=
  s ≠ [] ∧ ∀ c ∈ s, isSpace c = false ∧ c ∉ ['=', '!', '<', '>', '~']

/-- A text without surrounding white space. -/
def Trimmed (s : Bytes) : Prop :=
  (∀ c cs, s = c :: cs → isSpace c = false) ∧ (∀ cs c, s = cs ++ [c] → isSpace c = false)

/-- The text does not begin with a quantifier. -/
def NoQuant (s : Bytes) : Prop :=
  ∀ q ∈ [b!"any", b!"some", b!"all"], lower s ≠ q ∧ ∀ t, lower s ≠ q ++ ' ' :: t

/-! ### Lemmas on white space -/

theorem trim_self {s : Bytes} (h : Trimmed s) : trim s = s := by
  unfold trim trimSpace
  have h1 : trimLeft s = s := by
    unfold trimLeft
    cases s with
    | nil => rfl
    | cons c cs => rw [List.dropWhile_cons, h.1 c cs rfl]; simp
  rw [h1]
  have h2 : trimLeft s.reverse = s.reverse := by
    unfold trimLeft
    cases hr : s.reverse with
    | nil => rfl
    | cons c cs =>
      have : s = cs.reverse ++ [c] := by
        rw [← List.reverse_reverse s, hr]; simp
      rw [List.dropWhile_cons, h.2 _ c this]; simp
  rw [h2, List.reverse_reverse]

theorem trimLeft_blank {ws s : Bytes} (h : Blank ws) : trimLeft (ws ++ s) = trimLeft s := by
  induction ws with
  | nil => rfl
  | cons c cs ih =>
    have hc : isSpace c = true := h c (by simp)
    unfold trimLeft
    rw [List.cons_append, List.dropWhile_cons, hc]
    exact ih (fun d hd => h d (by simp [hd]))

theorem Blank.reverse {ws : Bytes} (h : Blank ws) : Blank ws.reverse :=
  fun c hc => h c (by simpa using hc)

theorem trim_blank_left {ws s : Bytes} (h : Blank ws) : trim (ws ++ s) = trim s := by
  unfold trim trimSpace
  rw [trimLeft_blank h]

theorem trim_blank (ws : Bytes) (h : Blank ws) : trim ws = [] := by
  have := trim_blank_left (s := []) h
  rw [List.append_nil] at this
  rw [this]; rfl

/-- Trimming removes surrounding white space. -/
theorem trim_pad {ws s ws' : Bytes} (h : Blank ws) (h' : Blank ws') :
    trim (ws ++ s ++ ws') = trim s := by
  rw [List.append_assoc, trim_blank_left h]
  unfold trim trimSpace
  by_cases hb : trimLeft s = []
  · -- `s` is blank itself
    have hs : Blank s := by
      intro c hc
      have hsplit := List.takeWhile_append_dropWhile (p := isSpace) (l := s)
      unfold trimLeft at hb
      rw [hb, List.append_nil] at hsplit
      rw [← hsplit] at hc
      exact (List.all_eq_true.1 List.all_takeWhile) c hc
    have : trimLeft (s ++ ws') = [] := by
      rw [trimLeft_blank hs]
      have := trimLeft_blank (s := []) h'
      rw [List.append_nil] at this
      rw [this]; rfl
    rw [this, hb]
  · have : trimLeft (s ++ ws') = trimLeft s ++ ws' := by
      unfold trimLeft at *
      induction s with
      | nil => simp at hb
      | cons c cs ih =>
        rw [List.cons_append, List.dropWhile_cons, List.dropWhile_cons]
        split
        · rename_i hc
          rw [List.dropWhile_cons, if_pos hc] at hb
          exact ih hb
        · rfl
    rw [this, List.reverse_append, trimLeft_blank h'.reverse]

theorem trimmed_trim (s : Bytes) : Trimmed (trim s) := by
  obtain ⟨l, r, _, _, _, h1, h2⟩ := Verif.Filter.C11_trimSpace s
  exact ⟨h1, fun cs c h => h2 c cs h⟩

theorem Operand.trimmed {s : Bytes} (h : Operand s) : Trimmed s :=
  ⟨fun c cs e => (h.2 c (by simp [e])).1, fun cs c e => (h.2 c (by simp [e])).1⟩

theorem isSpace_opchar : ∀ c ∈ ['=', '!', '<', '>', '~'], isSpace c = false := by decide

theorem isSpace_letter {c : Char} (h : isSpace c = true) : lowerC c ≠ 'i' ∧ lowerC c ≠ 'n' := by
  have h1 := (Verif.Filter.C11_isSpace c).1 h
  have key : ∀ n ∈ [0x20, 0x09, 0x0a, 0x0b, 0x0c, 0x0d, 0x85, 0xa0],
      lowerC (Char.ofNat n) ≠ 'i' ∧ lowerC (Char.ofNat n) ≠ 'n' := by decide
  have := key c.toNat h1
  rwa [Char.ofNat_toNat] at this

/-- White space at the end removed. -/
def trimRight (s : Bytes) : Bytes := (trimLeft s.reverse).reverse

theorem trimRight_split (s : Bytes) : ∃ ws, Blank ws ∧ s = trimRight s ++ ws := by
  refine ⟨(s.reverse.takeWhile isSpace).reverse, ?_, ?_⟩
  · intro c hc
    exact (List.all_eq_true.1 (List.all_takeWhile (p := isSpace) (l := s.reverse))) c (by simpa using hc)
  · have := List.takeWhile_append_dropWhile (p := isSpace) (l := s.reverse)
    have h2 := congrArg List.reverse this
    rw [List.reverse_append, List.reverse_reverse] at h2
    exact h2.symm

theorem trim_trimRight (s : Bytes) : trim (trimRight s) = trim s := by
  obtain ⟨ws, hb, hs⟩ := trimRight_split s
  have h := trim_pad (ws := []) (s := trimRight s) (ws' := ws) (by intro c hc; cases hc) hb
  rw [List.nil_append, ← hs] at h
  exact h.symm

/-- Trimming a text whose first part begins and ends with something else than white space. -/
theorem trim_core {ws core t : Bytes} (h : Blank ws) (hc : Trimmed core) (hne : core ≠ []) :
    trim (ws ++ core ++ t) = core ++ trimRight t := by
  rw [List.append_assoc, trim_blank_left h]
  unfold trim trimSpace
  have h1 : trimLeft (core ++ t) = core ++ t := by
    cases core with
    | nil => exact absurd rfl hne
    | cons c cs =>
      unfold trimLeft
      rw [List.cons_append, List.dropWhile_cons, hc.1 c cs rfl]; simp
  rw [h1, List.reverse_append]
  unfold trimRight
  by_cases hb : trimLeft t.reverse = []
  · have hbl : Blank t.reverse := by
      intro c hcm
      have hsplit := List.takeWhile_append_dropWhile (p := isSpace) (l := t.reverse)
      unfold trimLeft at hb
      rw [hb, List.append_nil] at hsplit
      rw [← hsplit] at hcm
      exact (List.all_eq_true.1 List.all_takeWhile) c hcm
    rw [trimLeft_blank hbl, hb]
    have : trimLeft core.reverse = core.reverse := by
      cases hr : core.reverse with
      | nil => rfl
      | cons c cs =>
        have : core = cs.reverse ++ [c] := by rw [← List.reverse_reverse core, hr]; simp
        unfold trimLeft
        rw [List.dropWhile_cons, hc.2 _ c this]; simp
    rw [this]; simp
  · have : trimLeft (t.reverse ++ core.reverse) = trimLeft t.reverse ++ core.reverse := by
      generalize t.reverse = u at hb
      unfold trimLeft at *
      induction u with
      | nil => simp at hb
      | cons c cs ih =>
        rw [List.cons_append, List.dropWhile_cons, List.dropWhile_cons]
        split
        · rename_i hc
          rw [List.dropWhile_cons, if_pos hc] at hb
          exact ih hb
        · rfl
    rw [this]; simp

/-! ### Lemmas on the scan -/

theorem scan_cont {c : Char} {cs : Bytes} (h : exprStep c cs = .cont) :
    scanExpr (c :: cs) = (scanExpr cs).map fun p => (c :: p.1, p.2.1, p.2.2) := by
  rw [scanExpr, h]

theorem exprStep_plain {c : Char} (r : Bytes) (h : c ∉ ['=', '!', '<', '>', '~']) (h' : c ≠ ' ') :
    exprStep c r = .cont := by
  simp at h
  simp [exprStep, h, h']

/-- The operands are passed over. -/
theorem scan_operand {s : Bytes} (r : Bytes)
    (h : ∀ c ∈ s, isSpace c = false ∧ c ∉ ['=', '!', '<', '>', '~']) :
    scanExpr (s ++ r) = (scanExpr r).map fun p => (s ++ p.1, p.2.1, p.2.2) := by
  induction s with
  | nil => simp only [List.nil_append]; cases scanExpr r <;> rfl
  | cons c cs ih =>
    have hc := h c (by simp)
    have hsp : c ≠ ' ' := by rintro rfl; exact absurd hc.1 (by decide)
    rw [List.cons_append, scan_cont (exprStep_plain _ hc.2 hsp),
      ih (fun d hd => h d (by simp [hd]))]
    cases scanExpr r <;> simp

theorem wordStep_cont {r : Bytes} (h : ∀ c cs, r = c :: cs → lowerC c ≠ 'i' ∧ lowerC c ≠ 'n') :
    wordStep r = .cont := by
  unfold wordStep
  cases r with
  | nil => rfl
  | cons c cs =>
    obtain ⟨h1, h2⟩ := h c cs rfl
    simp [lower, h1, h2]

/-- White space is passed over unless a word follows. -/
theorem scan_blank {ws r : Bytes} (h : Blank ws)
    (hr : ∀ c cs, r = c :: cs → lowerC c ≠ 'i' ∧ lowerC c ≠ 'n') :
    scanExpr (ws ++ r) = (scanExpr r).map fun p => (ws ++ p.1, p.2.1, p.2.2) := by
  induction ws with
  | nil => simp only [List.nil_append]; cases scanExpr r <;> rfl
  | cons c cs ih =>
    have hc := h c (by simp)
    have hcs : Blank cs := fun d hd => h d (by simp [hd])
    have hstep : exprStep c (cs ++ r) = .cont := by
      have hno : c ∉ ['=', '!', '<', '>', '~'] := by
        intro hm; rw [isSpace_opchar c hm] at hc; cases hc
      by_cases hsp : c = ' '
      · subst hsp
        have : exprStep ' ' (cs ++ r) = wordStep (cs ++ r) := by simp [exprStep]
        rw [this]
        apply wordStep_cont
        intro d ds e
        cases cs with
        | nil => exact hr d ds e
        | cons x xs =>
          simp at e
          rw [← e.1]
          exact isSpace_letter (hcs x (by simp))
      · exact exprStep_plain _ hno hsp
    rw [List.cons_append, scan_cont hstep, ih hcs]
    cases scanExpr r <;> simp

/-- The following text does not prolong a symbolic operator. -/
def NoExtend (t : Bytes) : Prop := ∀ c cs, t = c :: cs → c ∉ ['=', '>', '~', '*']

theorem symbol_step {op t : Bytes} (hop : op ∈ symbolOps) (ht : NoExtend t) :
    scanExpr (op ++ t) = some ([], op, t) := by
  have hx : ∀ c cs, t = c :: cs → c ≠ '=' ∧ c ≠ '>' ∧ c ≠ '~' ∧ c ≠ '*' := by
    intro c cs e; have := ht c cs e; simpa using this
  have step : ∀ c cs cop rhs, exprStep c cs = .hit cop rhs →
      scanExpr (c :: cs) = some ([], cop, rhs) := by
    intro c cs cop rhs e; rw [scanExpr, e]
  have hlt : ltStep t = .hit b!"<" t := by
    cases t with
    | nil => rfl
    | cons c cs => have := hx c cs rfl; simp [ltStep, this]
  have hgt : gtStep t = .hit b!">" t := by
    cases t with
    | nil => rfl
    | cons c cs => have := hx c cs rfl; simp [gtStep, this]
  have hti : tildeStep t = .hit b!"~" t := by
    cases t with
    | nil => rfl
    | cons c cs => have := hx c cs rfl; simp [tildeStep, this]
  have hbt : bangStep ('~' :: t) = .hit b!"!~" t := by
    cases t with
    | nil => rfl
    | cons c cs => have := hx c cs rfl; simp [bangStep, this]
  simp only [symbolOps, List.mem_cons, List.not_mem_nil, or_false] at hop
  rcases hop with rfl | rfl | rfl | rfl | rfl | rfl | rfl | rfl | rfl | rfl | rfl <;>
    (apply step
     first
     | (simp [exprStep, hlt, hgt, hti, hbt]; done)
     | simp [exprStep, ltStep, gtStep, tildeStep, bangStep])

theorem lower_length (s : Bytes) : (lower s).length = s.length := by simp [lower]
theorem lower_append (s t : Bytes) : lower (s ++ t) = lower s ++ lower t := by simp [lower]

/-- A word operator in any letter case. -/
theorem word_step {w t : Bytes} (hw : lower w ∈ wordOps) (ht : t = [] ∨ ∃ u, t = ' ' :: u) :
    wordStep (w ++ t) = .hit (lower w) t := by
  have hlen : w.length = (lower w).length := (lower_length w).symm
  have hdrop : ∀ op : Bytes, lower w = op → (w ++ t).drop op.length = t := by
    intro op e
    rw [← e, ← hlen, List.drop_left]
  have key : ∀ op ∈ wordOps, ∀ v : Bytes, (v = [] ∨ ∃ u, v = ' ' :: u) →
      ∀ r : Bytes, lower r = op ++ v → wordStep r = .hit op (r.drop op.length) := by
    intro op hop v hv r hr
    simp only [wordOps, List.mem_cons, List.not_mem_nil, or_false] at hop
    rcases hv with rfl | ⟨u, rfl⟩ <;>
    rcases hop with rfl | rfl | rfl | rfl | rfl | rfl | rfl | rfl | rfl | rfl | rfl | rfl | rfl |
      rfl | rfl | rfl | rfl | rfl | rfl | rfl | rfl | rfl <;>
    simp [wordStep, hr, findAdj, predicateAdjectives]
  have := key (lower w) hw (lower t) (by
    rcases ht with rfl | ⟨u, rfl⟩
    · left; rfl
    · right; exact ⟨lower u, by simp [lower]; decide⟩) (w ++ t) (lower_append w t)
  rw [this, hdrop _ rfl]

/-! ### Splitting off the operator -/

theorem trimmed_append {a b : Bytes} (ha : Trimmed a) (hane : a ≠ []) (hb : Trimmed b)
    (hbne : b ≠ []) (m : Bytes) : Trimmed (a ++ m ++ b) := by
  constructor
  · intro c cs e
    cases a with
    | nil => exact absurd rfl hane
    | cons x xs => simp at e; rw [← e.1]; exact ha.1 x xs rfl
  · intro cs c e
    rcases List.eq_nil_or_concat b with rfl | ⟨ys, y, rfl⟩
    · exact absurd rfl hbne
    · rw [List.concat_eq_append, ← List.append_assoc] at e
      have := (List.append_inj_right' e rfl)
      simp at this
      rw [← this]
      exact hb.2 ys y (by simp)

theorem symbolOps_trimmed : ∀ op ∈ symbolOps, Trimmed op ∧ op ≠ [] := by
  intro op hop
  have h : ∀ op ∈ symbolOps, (∀ c ∈ op, isSpace c = false) ∧ op ≠ [] := by decide
  exact ⟨⟨fun c cs e => (h op hop).1 c (by simp [e]), fun cs c e => (h op hop).1 c (by simp [e])⟩,
    (h op hop).2⟩

theorem wordOps_trimmed : ∀ op ∈ wordOps, (∀ c ∈ op, isSpace c = false) ∧ op ≠ [] := by
  decide

theorem lowerC_space (c : Char) : isSpace (lowerC c) = isSpace c := by
  unfold lowerC
  split
  · rename_i h
    have h65 : 'A'.toNat = 65 := rfl
    have h90 : 'Z'.toNat = 90 := rfl
    rw [h65, h90] at h
    have key : ∀ n ∈ List.range 91, 65 ≤ n →
        isSpace (Char.ofNat (n + 32)) = isSpace (Char.ofNat n) := by decide
    have := key c.toNat (by simp; omega) h.1
    rwa [Char.ofNat_toNat] at this
  · rfl

theorem trimRight_prefix (t : Bytes) : trimRight t = [] ∨
    ∃ c cs cs', t = c :: cs ∧ trimRight t = c :: cs' := by
  obtain ⟨ws, _, hs⟩ := trimRight_split t
  cases h : trimRight t with
  | nil => left; rfl
  | cons c cs' =>
    right
    rw [h] at hs
    exact ⟨c, cs' ++ ws, cs', by simpa using hs, rfl⟩

theorem parse_symbol {ws0 lhs ws1 op t : Bytes} (h0 : Blank ws0) (hl : Operand lhs)
    (h1 : Blank ws1) (hop : op ∈ symbolOps) (ht : NoExtend t) :
    parsePredicateExpr (ws0 ++ lhs ++ ws1 ++ op ++ t) =
      { lhs := lhs, op := op, quant := trim (cutQuant (trim t)).1,
        rhs := trim (cutQuant (trim t)).2 } := by
  have hopt := symbolOps_trimmed op hop
  have hcore := trimmed_append hl.trimmed hl.1 hopt.1 hopt.2 ws1
  have htrim : trim (ws0 ++ lhs ++ ws1 ++ op ++ t) = lhs ++ ws1 ++ op ++ trimRight t := by
    have := trim_core (ws := ws0) (core := lhs ++ ws1 ++ op) (t := t) h0 hcore (by simp [hl.1])
    simpa using this
  have hno : NoExtend (trimRight t) := by
    intro c cs e
    rcases trimRight_prefix t with h | ⟨d, ds, ds', h1, h2⟩
    · rw [h] at e; cases e
    · rw [h2] at e; cases e; exact ht _ ds h1
  have hopfirst : ∀ c cs, op ++ trimRight t = c :: cs → lowerC c ≠ 'i' ∧ lowerC c ≠ 'n' := by
    intro c cs e
    have : ∀ op ∈ symbolOps, ∀ d ∈ op, lowerC d ≠ 'i' ∧ lowerC d ≠ 'n' := by decide
    cases op with
    | nil => exact absurd rfl hopt.2
    | cons x xs => simp at e; rw [← e.1]; exact this _ hop x (by simp)
  unfold parsePredicateExpr
  rw [htrim]
  have hscan : scanExpr (lhs ++ ws1 ++ op ++ trimRight t) = some (lhs ++ ws1, op, trimRight t) := by
    rw [List.append_assoc, List.append_assoc, scan_operand _ hl.2, scan_blank h1 hopfirst,
      symbol_step hop hno]
    simp
  rw [hscan]
  have hlt : trim (lhs ++ ws1) = lhs := by
    have := trim_pad (ws := []) (s := lhs) (ws' := ws1) (by intro c hc; cases hc) h1
    rw [List.nil_append] at this
    rw [this, trim_self hl.trimmed]
  have hlen : lhs.length ≠ 0 := by simp [hl.1]
  simp only [hlt, hlen, if_false, trim_trimRight, trim_self hopt.1]

theorem parse_word {ws0 lhs ws1 w t : Bytes} (h0 : Blank ws0) (hl : Operand lhs)
    (h1 : Blank ws1) (hw : lower w ∈ wordOps) (ht : Blank t ∨ ∃ u, t = ' ' :: u) :
    parsePredicateExpr (ws0 ++ lhs ++ ws1 ++ ' ' :: w ++ t) =
      { lhs := lhs, op := lower w, quant := trim (cutQuant (trim t)).1,
        rhs := trim (cutQuant (trim t)).2 } := by
  have hwt := wordOps_trimmed _ hw
  have hwsp : ∀ c ∈ w, isSpace c = false := by
    intro c hc
    rw [← lowerC_space]
    exact hwt.1 _ (List.mem_map.2 ⟨c, hc, rfl⟩)
  have hwne : w ≠ [] := by rintro rfl; exact hwt.2 rfl
  have hwtr : Trimmed w :=
    ⟨fun c cs e => hwsp c (by simp [e]), fun cs c e => hwsp c (by simp [e])⟩
  have hwtr' : Trimmed (lower w) :=
    ⟨fun c cs e => hwt.1 c (by simp [e]), fun cs c e => hwt.1 c (by simp [e])⟩
  have hcore := trimmed_append hl.trimmed hl.1 hwtr hwne (ws1 ++ b!" ")
  have htrim : trim (ws0 ++ lhs ++ ws1 ++ ' ' :: w ++ t) = lhs ++ ws1 ++ ' ' :: w ++ trimRight t := by
    have := trim_core (ws := ws0) (core := lhs ++ (ws1 ++ b!" ") ++ w) (t := t) h0 hcore
      (by simp [hl.1])
    simpa using this
  have ht' : trimRight t = [] ∨ ∃ u, trimRight t = ' ' :: u := by
    rcases trimRight_prefix t with h | ⟨d, ds, ds', h1, h2⟩
    · exact .inl h
    · rcases ht with ht | ⟨u, hu⟩
      · left
        have : trimLeft t.reverse = [] := by
          have := trimLeft_blank (s := []) ht.reverse
          rw [List.append_nil] at this
          rw [this]; rfl
        simp [trimRight, this]
      · rw [hu] at h1; cases h1
        exact .inr ⟨ds', h2⟩
  unfold parsePredicateExpr
  rw [htrim]
  have hstep : scanExpr (' ' :: (w ++ trimRight t)) = some ([], lower w, trimRight t) := by
    rw [scanExpr]
    have : exprStep ' ' (w ++ trimRight t) = .hit (lower w) (trimRight t) := by
      have h : exprStep ' ' (w ++ trimRight t) = wordStep (w ++ trimRight t) := by simp [exprStep]
      rw [h, word_step hw ht']
    rw [this]
  have hscan : scanExpr (lhs ++ ws1 ++ ' ' :: w ++ trimRight t) =
      some (lhs ++ ws1, lower w, trimRight t) := by
    have e : lhs ++ ws1 ++ ' ' :: w ++ trimRight t = lhs ++ (ws1 ++ ' ' :: (w ++ trimRight t)) := by
      simp
    rw [e, scan_operand _ hl.2, scan_blank h1, hstep]
    · simp
    · intro c cs e; cases e; decide
  rw [hscan]
  have hlt : trim (lhs ++ ws1) = lhs := by
    have := trim_pad (ws := []) (s := lhs) (ws' := ws1) (by intro c hc; cases hc) h1
    rw [List.nil_append] at this
    rw [this, trim_self hl.trimmed]
  have hlen : lhs.length ≠ 0 := by simp [hl.1]
  simp only [hlt, hlen, if_false, trim_trimRight, trim_self hwtr']

/-! ### Splitting off the quantifier -/

/-- The quantifiers, in any letter case. -/
def IsQuant (q : Bytes) : Prop := lower q ∈ [b!"any", b!"some", b!"all"]

theorem lower_inj_space {c : Char} (h : lowerC c = ' ') : c = ' ' := by
  have hs : isSpace c = true := by rw [← lowerC_space, h]; decide
  have h1 := (Verif.Filter.C11_isSpace c).1 hs
  have key : ∀ n ∈ [0x20, 0x09, 0x0a, 0x0b, 0x0c, 0x0d, 0x85, 0xa0],
      lowerC (Char.ofNat n) = ' ' → Char.ofNat n = ' ' := by decide
  have := key c.toNat h1
  rw [Char.ofNat_toNat] at this
  exact this h

theorem take_get {x q : Bytes} (h1 : x.take q.length = q)
    (h2 : x.length = q.length ∨ x[q.length]? = some ' ') : x = q ∨ ∃ t, x = q ++ ' ' :: t := by
  have hx := List.take_append_drop q.length x
  rw [h1] at hx
  rcases h2 with h2 | h2
  · left
    rw [← hx, List.drop_of_length_le (by omega), List.append_nil]
  · right
    cases hd : x.drop q.length with
    | nil =>
      have := List.drop_eq_nil_iff.1 hd
      rw [List.getElem?_eq_none (by omega)] at h2
      cases h2
    | cons c cs =>
      have : x[q.length]? = some c := by
        have := congrArg (fun l : Bytes => l[0]?) hd
        simpa using this
      rw [this] at h2
      cases h2
      exact ⟨cs, by rw [← hx, hd]⟩

theorem cutQuant_none {s : Bytes} (h : NoQuant s) : cutQuant s = ([], s) := by
  unfold cutQuant
  rw [if_neg, if_neg]
  · rintro ⟨h1, h2⟩
    have := h b!"some" (by simp)
    rcases take_get (q := b!"some") h1 h2 with e | ⟨t, e⟩
    · exact this.1 e
    · exact this.2 t e
  · rintro ⟨h1 | h1, h2⟩
    · have := h b!"any" (by simp)
      rcases take_get (q := b!"any") h1 h2 with e | ⟨t, e⟩
      · exact this.1 e
      · exact this.2 t e
    · have := h b!"all" (by simp)
      rcases take_get (q := b!"all") h1 h2 with e | ⟨t, e⟩
      · exact this.1 e
      · exact this.2 t e

theorem cutQuant_some {q t : Bytes} (hq : IsQuant q) (ht : t = [] ∨ ∃ u, t = ' ' :: u) :
    cutQuant (q ++ t) = (lower q, t) := by
  have hlen : q.length = (lower q).length := (lower_length q).symm
  have ht' : lower t = [] ∨ ∃ u, lower t = ' ' :: u := by
    rcases ht with rfl | ⟨u, rfl⟩
    · left; rfl
    · right; exact ⟨lower u, by simp [lower]; decide⟩
  have hd : ∀ n, n = q.length → (q ++ t).drop n = t := by
    rintro n rfl; exact List.drop_left
  unfold cutQuant
  rw [lower_append]
  unfold IsQuant at hq
  simp only [List.mem_cons, List.not_mem_nil, or_false] at hq
  rcases hq with hq | hq | hq <;> rw [hq] at hlen ⊢ <;>
    rcases ht' with ht' | ⟨u, ht'⟩ <;> simp [ht'] <;>
    exact hd _ hlen.symm

/-! ### C31 -/

/-- **C31**, operators written with symbols: every written form of `lhs op rhs` splits into these
parts, whatever blanks are put around them.  (Without a blank after the operator the right-hand
side must not begin with a character that prolongs the operator.) -/
theorem C31_symbol (ws0 lhs ws1 op ws2 rhs ws3 : Bytes) (h0 : Blank ws0) (hl : Operand lhs)
    (h1 : Blank ws1) (hop : op ∈ symbolOps) (h2 : Blank ws2)
    (hr : Trimmed rhs) (hq : NoQuant rhs) (h3 : Blank ws3)
    (hx : ws2 ≠ [] ∨ ∀ c cs, rhs = c :: cs → c ∉ ['=', '>', '~', '*']) :
    parsePredicateExpr (ws0 ++ lhs ++ ws1 ++ op ++ ws2 ++ rhs ++ ws3) =
      { lhs := lhs, op := op, quant := [], rhs := rhs } := by
  have hno : NoExtend (ws2 ++ rhs ++ ws3) := by
    intro c cs e
    have hsp : isSpace c = true → c ∉ ['=', '>', '~', '*'] := by
      intro hs hm
      have : ∀ d ∈ ['=', '>', '~', '*'], isSpace d = false := by decide
      rw [this c hm] at hs; cases hs
    cases ws2 with
    | cons x xs => simp at e; exact hsp (by rw [← e.1]; exact h2 x (by simp))
    | nil =>
      cases rhs with
      | nil => simp at e; exact hsp (h3 c (by simp [e]))
      | cons x xs =>
        simp at e
        rw [← e.1]
        exact (hx.resolve_left (by simp)) x xs rfl
  have h := parse_symbol h0 hl h1 hop hno
  have e : ws0 ++ lhs ++ ws1 ++ op ++ (ws2 ++ rhs ++ ws3) = ws0 ++ lhs ++ ws1 ++ op ++ ws2 ++ rhs ++ ws3 := by
    simp
  rw [e] at h
  rw [h, trim_pad h2 h3, trim_self hr, cutQuant_none hq]
  simp only [trim_self hr]
  rfl

/-- Written with words (in any letter case; a space before, and after unless nothing follows). -/
theorem C31_word (ws0 lhs ws1 w ws2 rhs ws3 : Bytes) (h0 : Blank ws0) (hl : Operand lhs)
    (h1 : Blank ws1) (hw : lower w ∈ wordOps) (h2 : Blank ws2)
    (hr : Trimmed rhs) (hq : NoQuant rhs) (h3 : Blank ws3)
    (hx : rhs = [] ∨ ∃ u, ws2 = ' ' :: u) :
    parsePredicateExpr (ws0 ++ lhs ++ ws1 ++ b!" " ++ w ++ ws2 ++ rhs ++ ws3) =
      { lhs := lhs, op := lower w, quant := [], rhs := rhs } := by
  have ht : Blank (ws2 ++ rhs ++ ws3) ∨ ∃ u, ws2 ++ rhs ++ ws3 = ' ' :: u := by
    rcases hx with rfl | ⟨u, rfl⟩
    · left
      intro c hc
      simp at hc
      rcases hc with hc | hc
      · exact h2 c hc
      · exact h3 c hc
    · right; exact ⟨u ++ rhs ++ ws3, by simp⟩
  have h := parse_word h0 hl h1 hw ht
  have e : ws0 ++ lhs ++ ws1 ++ ' ' :: w ++ (ws2 ++ rhs ++ ws3) =
      ws0 ++ lhs ++ ws1 ++ b!" " ++ w ++ ws2 ++ rhs ++ ws3 := by simp
  rw [e] at h
  rw [h, trim_pad h2 h3, trim_self hr, cutQuant_none hq]
  simp only [trim_self hr]
  rfl

theorem IsQuant.trimmed {q : Bytes} (h : IsQuant q) :
    (∀ c ∈ q, isSpace c = false) ∧ q ≠ [] ∧ Trimmed (lower q) ∧
      ∀ c cs, q = c :: cs → c ∉ ['=', '>', '~', '*'] := by
  have key : ∀ w ∈ [b!"any", b!"some", b!"all"],
      (∀ c ∈ w, isSpace c = false) ∧ w ≠ [] ∧ ∀ c ∈ w, c ∉ ['=', '>', '~', '*'] := by decide
  have hk := key _ h
  refine ⟨?_, ?_, ⟨fun c cs e => hk.1 c (by simp [e]), fun cs c e => hk.1 c (by simp [e])⟩, ?_⟩
  · intro c hc
    rw [← lowerC_space]
    exact hk.1 _ (List.mem_map.2 ⟨c, hc, rfl⟩)
  · rintro rfl; exact hk.2.1 rfl
  · intro c cs e hm
    have h1 := hk.2.2 (lowerC c) (List.mem_map.2 ⟨c, by simp [e], rfl⟩)
    have h2 : ∀ d ∈ ['=', '>', '~', '*'], lowerC d = d := by decide
    rw [h2 c hm] at h1
    exact h1 hm

/-- What follows the operator: quantifier and right-hand side. -/
theorem cut_tail (ws2 q ws3 rhs ws4 : Bytes) (h2 : Blank ws2) (hq : IsQuant q) (h3 : Blank ws3)
    (hr : Trimmed rhs) (h4 : Blank ws4) (hx : rhs = [] ∨ ∃ u, ws3 = ' ' :: u) :
    let t := ws2 ++ q ++ ws3 ++ rhs ++ ws4
    trim (cutQuant (trim t)).1 = lower q ∧ trim (cutQuant (trim t)).2 = rhs := by
  have hqt := hq.trimmed
  have hqtr : Trimmed q :=
    ⟨fun c cs e => hqt.1 c (by simp [e]), fun cs c e => hqt.1 c (by simp [e])⟩
  have e : ws2 ++ q ++ ws3 ++ rhs ++ ws4 = ws2 ++ q ++ (ws3 ++ rhs ++ ws4) := by simp
  simp only
  rw [e, trim_core h2 hqtr hqt.2.1]
  have ht : trimRight (ws3 ++ rhs ++ ws4) = [] ∨ ∃ u, trimRight (ws3 ++ rhs ++ ws4) = ' ' :: u := by
    rcases hx with rfl | ⟨u, rfl⟩
    · left
      have hb : Blank (ws3 ++ [] ++ ws4).reverse := by
        intro c hc
        simp at hc
        rcases hc with hc | hc
        · exact h4 c hc
        · exact h3 c hc
      have := trimLeft_blank (s := []) hb
      rw [List.append_nil] at this
      simp only [trimRight]
      rw [this]; rfl
    · rcases trimRight_prefix (' ' :: u ++ rhs ++ ws4) with h | ⟨d, ds, ds', h1, h2⟩
      · exact .inl h
      · cases h1; exact .inr ⟨_, h2⟩
  rw [cutQuant_some hq ht]
  refine ⟨trim_self hqt.2.2.1, ?_⟩
  rw [trim_trimRight, trim_pad h3 h4, trim_self hr]

/-- With a quantifier, after an operator written with symbols. -/
theorem C31_symbol_quant (ws0 lhs ws1 op ws2 q ws3 rhs ws4 : Bytes) (h0 : Blank ws0)
    (hl : Operand lhs) (h1 : Blank ws1) (hop : op ∈ symbolOps) (h2 : Blank ws2) (hq : IsQuant q)
    (h3 : Blank ws3) (hr : Trimmed rhs) (h4 : Blank ws4)
    (hx : rhs = [] ∨ ∃ u, ws3 = ' ' :: u) :
    parsePredicateExpr (ws0 ++ lhs ++ ws1 ++ op ++ ws2 ++ q ++ ws3 ++ rhs ++ ws4) =
      { lhs := lhs, op := op, quant := lower q, rhs := rhs } := by
  have hqt := hq.trimmed
  have hno : NoExtend (ws2 ++ q ++ ws3 ++ rhs ++ ws4) := by
    intro c cs e
    cases ws2 with
    | cons x xs =>
      simp at e
      intro hm
      have : ∀ d ∈ ['=', '>', '~', '*'], isSpace d = false := by decide
      have hs := h2 x (by simp)
      rw [e.1, this c hm] at hs; cases hs
    | nil =>
      cases q with
      | nil => exact absurd rfl hqt.2.1
      | cons x xs =>
        simp at e
        rw [← e.1]
        exact hqt.2.2.2 x xs rfl
  have h := parse_symbol h0 hl h1 hop hno
  have hc := cut_tail ws2 q ws3 rhs ws4 h2 hq h3 hr h4 hx
  simp only at hc
  rw [hc.1, hc.2] at h
  simpa using h

/-- With a quantifier, after an operator written with words. -/
theorem C31_word_quant (ws0 lhs ws1 w ws2 q ws3 rhs ws4 : Bytes) (h0 : Blank ws0)
    (hl : Operand lhs) (h1 : Blank ws1) (hw : lower w ∈ wordOps) (h2 : Blank ws2) (hq : IsQuant q)
    (h3 : Blank ws3) (hr : Trimmed rhs) (h4 : Blank ws4)
    (hx : rhs = [] ∨ ∃ u, ws3 = ' ' :: u) :
    parsePredicateExpr
        (ws0 ++ lhs ++ ws1 ++ b!" " ++ w ++ b!" " ++ ws2 ++ q ++ ws3 ++ rhs ++ ws4) =
      { lhs := lhs, op := lower w, quant := lower q, rhs := rhs } := by
  have hb : Blank (b!" " ++ ws2) := by
    intro c hc
    simp at hc
    rcases hc with rfl | hc
    · decide
    · exact h2 c hc
  have h := parse_word (t := b!" " ++ ws2 ++ q ++ ws3 ++ rhs ++ ws4) h0 hl h1 hw
    (.inr ⟨ws2 ++ q ++ ws3 ++ rhs ++ ws4, by simp⟩)
  have hc := cut_tail (b!" " ++ ws2) q ws3 rhs ws4 hb hq h3 hr h4 hx
  simp only at hc
  rw [hc.1, hc.2] at h
  simpa using h

/-- Only a left-hand side. -/
theorem C31_lhs (ws0 lhs ws1 : Bytes) (h0 : Blank ws0) (hl : Operand lhs) (h1 : Blank ws1) :
    parsePredicateExpr (ws0 ++ lhs ++ ws1) = { lhs := lhs, op := [], quant := [], rhs := [] } := by
  unfold parsePredicateExpr
  rw [trim_pad h0 h1, trim_self hl.trimmed]
  have := scan_operand [] hl.2
  rw [List.append_nil] at this
  rw [this]
  rfl

/-- Surrounding blanks are irrelevant for every expression whatsoever. -/
theorem C31_pad (ws0 s ws1 : Bytes) (h0 : Blank ws0) (h1 : Blank ws1) :
    parsePredicateExpr (ws0 ++ s ++ ws1) = parsePredicateExpr s := by
  unfold parsePredicateExpr
  rw [trim_pad h0 h1]

/-- Each operator has exactly one predicate, and its text is the one in the table. -/
theorem C31_table :
    (∀ op ∈ symbolOps ++ wordOps, ∃ p, stringToPredicate op = some p) ∧
    (∀ e ∈ predTable, stringToPredicate e.1 = some e.2) ∧
    (∀ e ∈ predTable, e.1 ∈ symbolOps ++ wordOps ∨
      e.2 = .isBetweenAsym ∨ e.2 = .notBetweenAsym) ∧
    (∀ p : Pred, ∃ s, (s, p) ∈ predTable) ∧
    (∀ q : Quant, ∃ s ∈ [b!"any", b!"some", b!"all"], stringToQuantifier s = some q) := by
  refine ⟨?_, by decide +kernel, by decide +kernel, ?_, ?_⟩
  · intro op hop
    have : ∀ op ∈ symbolOps ++ wordOps, (stringToPredicate op).isSome = true := by decide +kernel
    exact Option.isSome_iff_exists.1 (this op hop)
  · intro p
    cases p <;> simp [predTable]
  · intro q
    cases q
    · exact ⟨b!"any", by simp, by decide⟩
    · exact ⟨b!"some", by simp, by decide⟩
    · exact ⟨b!"all", by simp, by decide⟩

/-- How each predicate is written. -/
def spelling : Pred → Bytes
  | .isEQ => b!"="
  | .notEQ => b!"<>"
  | .notEQ2 => b!"!="
  | .isLT => b!"<"
  | .isGT => b!">"
  | .isLTE => b!"<="
  | .isGTE => b!">="
  | .isDistinct => b!"isdistinct"
  | .notDistinct => b!"notdistinct"
  | .isMatch => b!"~"
  | .isMatchi => b!"~*"
  | .notMatch => b!"!~"
  | .notMatchi => b!"!~*"
  | .isLike => b!"islike"
  | .notLike => b!"notlike"
  | .isILike => b!"isilike"
  | .notILike => b!"notilike"
  | .isSimilar => b!"issimilar"
  | .notSimilar => b!"notsimilar"
  | .isIn => b!"isin"
  | .notIn => b!"notin"
  | .isBetween => b!"isbetween"
  | .notBetween => b!"notbetween"
  | .isBetweenSym => b!"isbetweensym"
  | .notBetweenSym => b!"notbetweensym"
  | .isBetweenAsym => b!"isbetweenasym"
  | .notBetweenAsym => b!"notbetweenasym"
  | .isNull => b!"isnull"
  | .notNull => b!"notnull"
  | .isTrue => b!"istrue"
  | .notTrue => b!"nottrue"
  | .isFalse => b!"isfalse"
  | .notFalse => b!"notfalse"
  | .isUnknown => b!"isunknown"
  | .notUnknown => b!"notunknown"

/-- Each predicate is what its own text, and no other, is parsed to. -/
theorem C31_spelling (s : Bytes) (p : Pred) : stringToPredicate s = some p ↔ s = spelling p := by
  constructor
  · intro h
    simp only [stringToPredicate, predTable, List.lookup] at h
    repeat' split at h
    all_goals first
      | (cases h; rename_i hs; simpa [spelling] using hs)
      | (cases h)
  · rintro rfl
    cases p <;> decide +kernel

/-- The two ASYMMETRIC predicates cannot be written: their words are not in the list of
adjectives, and the whole expression is taken for a column. -/
theorem C31_not_asymmetric :
    parsePredicateExpr b!"a isbetweenasym" = { lhs := b!"a isbetweenasym" } ∧
    parsePredicateExpr b!"a notbetweenasym" = { lhs := b!"a notbetweenasym" } ∧
    parseColIdent [] b!"a isbetweenasym" = .err .badColIdTagValue := by
  decide +kernel

/-- The classes of predicates are disjoint, and cover every predicate. -/
theorem C31_classes (p : Pred) :
    ([p.isBinary, p.isPatternMatch, p.isArray, p.isRange, p.isNullTest, p.isBoolean].filter (· = true)).length = 1 ∧
    (p.isUnary = true → p.canQuantify = false) := by
  cases p <;> decide

example : parsePredicateExpr b!"  u.age>=  any  p.age " =
    { lhs := b!"u.age", op := b!">=", quant := b!"any", rhs := b!"p.age" } := by decide +kernel
example : parsePredicateExpr b!"a NotIn Some b" =
    { lhs := b!"a", op := b!"notin", quant := b!"some", rhs := b!"b" } := by decide +kernel
example : parsePredicateExpr b!"a !~* 'x=y'" = { lhs := b!"a", op := b!"!~*", rhs := b!"'x=y'" } := by
  decide +kernel
example : parsePredicateExpr b!"a isnull" = { lhs := b!"a", op := b!"isnull" } := by decide +kernel
example : parsePredicateExpr b!"a <> anything" = { lhs := b!"a", op := b!"<>", rhs := b!"anything" } := by
  decide +kernel
example : parsePredicateExpr b!"a ! b = c" = { lhs := b!"a ! b = c" } := by decide +kernel
example : parsePredicateExpr b!"= c" = { lhs := b!"= c" } := by decide +kernel

end Verif.Analysis
