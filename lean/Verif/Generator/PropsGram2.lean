import Verif.Generator.PropsGram

/- Property C89: how values are read. -/
namespace Verif.Generator.Gram
open Verif.Analysis Verif.Postgres Verif.Generator.Lex Print

/-! ### From one level to the next -/

/-- What can begin a value. -/
def startTok : Tok → Bool
  | .word w => isConst (.word w) || nameWord w || funcWord w
  | .num _ | .str _ | .param _ | .name _ => true
  | _ => false

/-- The tokens begin like a value, or with a parenthesis. -/
def Begins : List Tok → Prop
  | t :: _ => startTok t = true ∨ t = .punct '('
  | [] => False

theorem Begins.append {a b : List Tok} (h : Begins a) : Begins (a ++ b) := by
  cases a with
  | nil => exact h.elim
  | cons t r => exact h

theorem Begins.length {a : List Tok} (h : Begins a) : 1 ≤ a.length := by
  cases a with
  | nil => exact h.elim
  | cons t r => simp

/-- A word that begins a value is no reserved word but those that are values. -/
theorem start_reserved {w : Bytes} (h : startTok (.word w) = true) (hr : w ∈ reserved) :
    isConst (.word w) = true := by
  simp only [startTok, nameWord, funcWord, Bool.or_eq_true, Bool.and_eq_true, Bool.not_eq_eq_eq_not, Bool.not_true,
    List.contains_eq_mem, decide_eq_false_iff_not] at h
  rcases h with (h | h) | h
  · exact h
  · exact absurd hr h.1
  · exact absurd hr h.1

theorem start_ne {w v : Bytes} (h : startTok (.word w) = true) (hr : v ∈ reserved) (hc : isConst (.word v) = false) :
    w ≠ v := by
  rintro rfl
  rw [start_reserved h hr] at hc
  cases hc

theorem castLoop_ends {k : Nat} {x : Ex} {rest : List Tok} (hk : 1 ≤ k) (h : Ends cont1 rest) :
    castLoop k x rest = some (x, rest) := by
  cases k with
  | zero => omega
  | succ k =>
    unfold castLoop
    split
    · omega
    · next h0 => simp [Ends, cont1] at h
    · rfl

theorem neg_of_cast {e : Ps Ex} {n : Nat} {ts : List Tok} (hb : Begins ts) : negLevel e n ts = castLevel e n ts := by
  unfold negLevel
  split
  · rcases hb with h | h <;> cases h
  · rfl

theorem op_of_neg {e : Ps Ex} {n : Nat} {ts rest : List Tok} {x : Ex} (hn : 1 ≤ n)
    (h : negLevel e n ts = some (x, rest)) (hr : Ends cont2 rest) : opLevel e n ts = some (x, rest) := by
  unfold opLevel
  rw [h]
  cases n with
  | zero => omega
  | succ n =>
    simp only [Option.bind_some]
    unfold opLoop
    split
    · omega
    · next o r => rw [if_neg]; simp_all [Ends, cont2]
    · rfl

theorem range_of_op {e : Ps Ex} {n : Nat} {ts rest : List Tok} {x : Ex}
    (h : opLevel e n ts = some (x, rest)) (hr : Ends cont3 rest) : rangeLevel e n ts = some (x, rest) := by
  unfold rangeLevel
  rw [h]
  cases rest with
  | nil => rfl
  | cons t r =>
    cases t with
    | word w =>
      simp only [Ends, cont3, Bool.or_eq_false_iff, decide_eq_false_iff_not] at hr
      simp [hr, rangeTail]
    | _ => rfl

theorem cmp_of_range {e : Ps Ex} {n : Nat} {ts rest : List Tok} {x : Ex}
    (h : rangeLevel e n ts = some (x, rest)) (hr : Ends cont4 rest) : cmpLevel e n ts = some (x, rest) := by
  unfold cmpLevel
  rw [h]
  cases rest with
  | nil => rfl
  | cons t r =>
    cases t with
    | op o =>
      simp only [Ends, cont4, Bool.or_eq_false_iff] at hr
      simp [hr]
    | _ => rfl

theorem is_of_cmp {e : Ps Ex} {n : Nat} {ts rest : List Tok} {x : Ex}
    (h : cmpLevel e n ts = some (x, rest)) (hr : Ends cont5 rest) : isLevel e n ts = some (x, rest) := by
  unfold isLevel
  rw [h]
  cases rest with
  | nil => rfl
  | cons t r =>
    cases t with
    | word w =>
      simp only [Ends, cont5, Bool.or_eq_false_iff, decide_eq_false_iff_not] at hr
      simp [hr]
    | _ => rfl

theorem not_of_is {e : Ps Ex} {n k : Nat} {ts : List Tok} (hn : 1 ≤ n) (hb : Begins ts) :
    notLevel e k n ts = isLevel e k ts := by
  cases n with
  | zero => omega
  | succ n =>
    unfold notLevel
    split
    · omega
    · next w r _ =>
      rw [if_neg]
      rcases hb with h | h
      · exact start_ne h (by decide) (by decide)
      · cases h
    · rfl

/-- From a value in front of what does not continue it to a condition. -/
theorem not_of_cast {e : Ps Ex} {n : Nat} {ts rest : List Tok} {x : Ex} (hn : 1 ≤ n) (hb : Begins ts)
    (h : castLevel e n ts = some (x, rest)) (hr : Ends cont5 rest) : notLevel e n n ts = some (x, rest) := by
  rw [not_of_is hn hb]
  refine is_of_cmp (cmp_of_range (range_of_op (op_of_neg hn ?_ hr.to4.to3.to2) hr.to4.to3) hr.to4) hr
  rw [neg_of_cast hb, h]

theorem andLoop_ends {e : Ps Ex} {n k : Nat} {rest : List Tok} {x : Ex} (hk : 1 ≤ k) (hr : Ends cont6 rest) :
    andLoop e n k x rest = some (x, rest) := by
  cases k with
  | zero => omega
  | succ k =>
    unfold andLoop
    split
    · omega
    · next w r => rw [if_neg]; simp_all [Ends, cont6]
    · rfl

theorem orLoop_ends {e : Ps Ex} {n k : Nat} {rest : List Tok} {x : Ex} (hk : 1 ≤ k) (hr : Ends cont7 rest) :
    orLoop e n k x rest = some (x, rest) := by
  cases k with
  | zero => omega
  | succ k =>
    unfold orLoop
    split
    · omega
    · next w r => rw [if_neg]; simp_all [Ends, cont7]
    · rfl

theorem expr_of_not {m : Nat} {ts rest : List Tok} {x : Ex}
    (h : notLevel (expr m) (m + 1) (m + 1) ts = some (x, rest)) (hr : Ends cont7 rest) :
    expr (m + 1) ts = some (x, rest) := by
  unfold expr andLevel
  rw [h]
  simp only [Option.bind_some]
  rw [andLoop_ends (by omega) hr.to6]
  simp only [Option.bind_some]
  exact orLoop_ends (by omega) hr

/-! ### Values -/

section
variable {α : Type} {f : α → Bytes}

theorem func_not_const {w : Bytes} (h : funcWord w = true) : isConst (.word w) = false := by
  cases hc : isConst (.word w) with
  | false => rfl
  | true =>
    simp only [isConst, Bool.or_eq_true, decide_eq_true_eq] at hc
    rcases hc with (((((((rfl | rfl) | rfl) | rfl) | rfl) | rfl) | rfl) | rfl) | rfl <;> exact absurd h (by decide)

theorem name_not_const {w : Bytes} (h : nameWord w = true) : isConst (.word w) = false := by
  cases hc : isConst (.word w) with
  | false => rfl
  | true =>
    simp only [isConst, Bool.or_eq_true, decide_eq_true_eq] at hc
    rcases hc with (((((((rfl | rfl) | rfl) | rfl) | rfl) | rfl) | rfl) | rfl) | rfl <;> exact absurd h (by decide)

theorem const_start {t : Tok} (h : isConst t = true) : startTok t = true := by
  cases t <;> simp_all [isConst, startTok]

/-- The two shapes of a value that is a text. -/
theorem atom_inv {ts : List Tok} (h : (atom ts).isSome = true) :
    (∃ t, ts = [t] ∧ isConst t = true ∧ atomEx ts = .const t) ∨
      ∃ w, ts = [.word w, .punct '(', .punct ')'] ∧ funcWord w = true ∧ atomEx ts = .call w [] := by
  unfold atom at h
  split at h
  · next t =>
    split at h
    · next hc => exact .inl ⟨t, rfl, hc, by simp [atomEx, atom, hc]⟩
    · cases h
  · next w =>
    split at h
    · next hc => exact .inr ⟨w, rfl, hc, by simp [atomEx, atom, hc]⟩
    · cases h
  · cases h

theorem atom_begins {ts : List Tok} (h : (atom ts).isSome = true) : Begins ts := by
  rcases atom_inv h with ⟨t, rfl, hc, _⟩ | ⟨w, rfl, hw, _⟩
  · exact .inl (const_start hc)
  · exact .inl (by simp [startTok, hw])

theorem qual_begins {q n : Bytes} (h : WordOk q) : Begins (qualToks q ++ [.name n]) := by
  unfold qualToks
  split
  · next hq => exact .inl (by simp [startTok, h hq])
  · exact .inl rfl

theorem val_begins : ∀ (v : VExpr α), ValGram f v → Begins (valToks f v)
  | .default, _ => .inl (by decide)
  | .param _, h => atom_begins h
  | .col _, h => qual_begins h
  | .xcol _, _ => .inl (by simp [startTok, nameWord, (by decide : b!"x" ∉ reserved), (by decide : b!"x" ∉ typeFunc)])
  | .lit _, h => atom_begins h
  | .cast x _, h => (val_begins x h.1).append
  | .nullif .., _ => .inl (by decide)
  | .coalesce .., _ => .inl (by decide)
  | .call _ _, h => .inl (by simp [startTok, h.1])
  | .quantified .., h => h.elim
  | .absent, h => h.elim

theorem args_begins {e : Ps Ex} {n : Nat} {ts : List Tok} (h : Begins ts) :
    args e n ts = (listOf e n ts).bind close := by
  unfold args
  split
  · rcases h with h | h
    · cases h
    · exact absurd h (by decide)
  · rcases h with h | h <;> cases h
  · rfl

/-- Tokens that are read as `x`. -/
def Reads (m n : Nat) (ts : List Tok) (x : Ex) : Prop :=
  ∀ rest, Ends cont0 rest → ∃ k, n + 1 ≤ k + ts.length ∧ castLevel (expr m) n (ts ++ rest) = castLoop k x rest

/-- A value that `prim` reads. -/
theorem Reads.of_prim {m n : Nat} {ts : List Tok} {x : Ex} (hl : 1 ≤ ts.length)
    (h : ∀ rest, Ends cont0 rest → prim (expr m) n (ts ++ rest) = some (x, rest)) : Reads m n ts x := by
  intro rest hr
  refine ⟨n, by omega, ?_⟩
  unfold castLevel
  rw [h rest hr]
  rfl

theorem Reads.castLevel {m n : Nat} {ts : List Tok} {x : Ex} (h : Reads m n ts x) (hl : ts.length ≤ n)
    {rest : List Tok} (hr : Ends cont1 rest) : castLevel (expr m) n (ts ++ rest) = some (x, rest) := by
  obtain ⟨k, hk, h⟩ := h rest hr.to0
  rw [h]
  exact castLoop_ends (by omega) hr

theorem Reads.notLevel {m n : Nat} {ts : List Tok} {x : Ex} (h : Reads m n ts x) (hb : Begins ts)
    (hl : ts.length ≤ n) {rest : List Tok} (hr : Ends cont5 rest) :
    notLevel (expr m) n n (ts ++ rest) = some (x, rest) := by
  have := hb.length
  exact not_of_cast (by omega) hb.append (h.castLevel hl hr.to4.to3.to2.to1) hr

theorem Reads.expr {m : Nat} {ts : List Tok} {x : Ex} (h : Reads m (m + 1) ts x) (hb : Begins ts)
    (hl : ts.length ≤ m + 1) {rest : List Tok} (hr : Ends cont7 rest) :
    expr (m + 1) (ts ++ rest) = some (x, rest) :=
  expr_of_not (h.notLevel hb hl hr.to6.to5) hr

theorem ends_close {c : Tok → Bool} (h : c (.punct ')') = false) (r : List Tok) : Ends c (.punct ')' :: r) := h

/-- One argument, and the parenthesis that closes. -/
theorem listOf_one {e : Ps Ex} {n : Nat} {ts r : List Tok} {x : Ex} (hn : 1 ≤ n)
    (h : e ts = some (x, .punct ')' :: r)) : (listOf e n ts).bind close = some ([x], r) := by
  cases n with
  | zero => omega
  | succ n => simp [listOf, h, close]

/-- Two arguments. -/
theorem listOf_two {e : Ps Ex} {n : Nat} {ts us r : List Tok} {x y : Ex} (hn : 2 ≤ n)
    (h : e ts = some (x, .punct ',' :: us)) (h' : e us = some (y, .punct ')' :: r)) :
    (listOf e n ts).bind close = some ([x, y], r) := by
  match n, hn with
  | n + 2, _ => simp [listOf, h, h', close]

/-- A call. -/
theorem prim_call {e : Ps Ex} {n : Nat} {w : Bytes} {ts r : List Tok} {l : List Ex} (hw : funcWord w = true)
    (hb : Begins ts) (h : (listOf e n ts).bind close = some (l, r)) :
    prim e n (.word w :: .punct '(' :: ts) = some (.call w l, r) := by
  simp [prim, func_not_const hw, nameOrCall, hw, args_begins hb, h]

/-- A value is read as meant. -/
theorem val_reads : ∀ (v : VExpr α) (m n : Nat), ValGram f v → (valToks f v).length ≤ n →
    (valToks f v).length ≤ m + 1 → Reads m n (valToks f v) (valTree f v)
  | .default, m, n, _, _, _ => .of_prim (by simp [valToks, kw]) fun rest _ => by
    show prim (expr m) n (.word b!"default" :: rest) = _
    simp [prim, (by decide : isConst (.word b!"default") = true), valTree]
  | .param a, m, n, h, hl, _ => by
    have hb := (atom_begins h).length
    refine .of_prim hb fun rest _ => ?_
    show prim (expr m) n (lex (f a) ++ rest) = some (atomEx (lex (f a)), rest)
    rcases atom_inv h with ⟨t, ht, hc, hx⟩ | ⟨w, ht, hw, hx⟩
    · rw [hx, ht]
      cases t <;> simp_all [prim, isConst]
    · rw [hx, ht]
      simp [prim, func_not_const hw, nameOrCall, hw, args]
  | .lit a, m, n, h, hl, _ => by
    have hb := (atom_begins h).length
    refine .of_prim hb fun rest _ => ?_
    show prim (expr m) n (lex a ++ rest) = some (atomEx (lex a), rest)
    rcases atom_inv h with ⟨t, ht, hc, hx⟩ | ⟨w, ht, hw, hx⟩
    · rw [hx, ht]
      cases t <;> simp_all [prim, isConst]
    · rw [hx, ht]
      simp [prim, func_not_const hw, nameOrCall, hw, args]
  | .col c, m, n, h, hl, _ => by
    refine .of_prim (val_begins (f := f) (.col c) h).length fun rest hr => ?_
    have hd : NoDot rest := by
      cases rest with
      | nil => trivial
      | cons t r => cases t with
        | punct c =>
          show c ≠ '.'
          rintro rfl
          cases hr
        | _ => trivial
    have hd0 := dots_dotted [] rest (by simp) hd
    have hd1 := dots_dotted [.name c.name] rest (by simp [isLabel]) hd
    simp only [dotted, List.nil_append, List.cons_append] at hd0 hd1
    show prim (expr m) n (qualToks c.qualifier ++ [.name c.name] ++ rest) = some (.col (colPath c), rest)
    unfold qualToks colPath
    split
    · next hq =>
      have hw := h hq
      simp [prim, name_not_const hw, nameOrCall, isName, hw, hd1]
    · simp [prim, isConst, nameOrCall, isName, hd0]
  | .xcol c, m, n, h, hl, _ => by
    refine .of_prim (by simp [valToks]) fun rest hr => ?_
    have hd : NoDot rest := by
      cases rest with
      | nil => trivial
      | cons t r => cases t with
        | punct c =>
          show c ≠ '.'
          rintro rfl
          cases hr
        | _ => trivial
    have hd1 := dots_dotted [.name c] rest (by simp [isLabel]) hd
    simp only [dotted, List.nil_append, List.cons_append] at hd1
    show prim (expr m) n (.word b!"x" :: .punct '.' :: .name c :: rest) = some (.col [.word b!"x", .name c], rest)
    simp [prim, name_not_const (by decide : nameWord b!"x" = true), nameOrCall, isName,
      (by decide : nameWord b!"x" = true), hd1]
  | .cast x t, m, n, h, hl, hm => by
    have ht := fun rest => typeName_append (rest := rest) h.2
    have hlx : (valToks f x).length + 1 + (lex t).length ≤ n := by simpa [valToks, Nat.add_assoc, Nat.add_comm 1] using hl
    have hmx : (valToks f x).length + 1 + (lex t).length ≤ m + 1 := by
      simpa [valToks, Nat.add_assoc, Nat.add_comm 1] using hm
    have ih := val_reads x m n h.1 (by omega) (by omega)
    intro rest hr
    obtain ⟨k, hk, hc⟩ := ih (.cast :: lex t ++ rest) rfl
    have ht0 : 1 ≤ (lex t).length := by
      cases hx : lex t with
      | nil => have := h.2; rw [TypeText, hx] at this; cases this
      | cons _ _ => simp
    cases k with
    | zero => omega
    | succ k =>
      refine ⟨k, by simp [valToks]; omega, ?_⟩
      show castLevel (expr m) n (valToks f x ++ .cast :: lex t ++ rest) = _
      rw [List.append_assoc, hc, List.cons_append]
      simp [castLoop, (ht rest hr).1, valTree]
  | .nullif x y, m, n, h, hl, hm => by
    simp only [valToks, kw, parens, List.length_append, List.length_cons, List.length_nil] at hl hm
    refine .of_prim (by simp [valToks, kw]) fun rest hr => ?_
    cases m with
    | zero => omega
    | succ m =>
      have hx := (val_reads x m (m + 1) h.1 (by omega) (by omega)).expr (val_begins x h.1) (by omega)
        (rest := .punct ',' :: (valToks f y ++ .punct ')' :: rest)) rfl
      have hy := (val_reads y m (m + 1) h.2 (by omega) (by omega)).expr (val_begins y h.2) (by omega)
        (rest := .punct ')' :: rest) rfl
      have := prim_call (w := b!"nullif") (by decide) (val_begins x h.1).append (listOf_two (n := n) (by omega) hx hy)
      simpa [valToks, kw, parens, valTree] using this
  | .coalesce x y, m, n, h, hl, hm => by
    simp only [valToks, kw, parens, List.length_append, List.length_cons, List.length_nil] at hl hm
    refine .of_prim (by simp [valToks, kw]) fun rest hr => ?_
    cases m with
    | zero => omega
    | succ m =>
      have hx := (val_reads x m (m + 1) h.1 (by omega) (by omega)).expr (val_begins x h.1) (by omega)
        (rest := .punct ',' :: (valToks f y ++ .punct ')' :: rest)) rfl
      have hy := (val_reads y m (m + 1) h.2 (by omega) (by omega)).expr (val_begins y h.2) (by omega)
        (rest := .punct ')' :: rest) rfl
      have := prim_call (w := b!"coalesce") (by decide) (val_begins x h.1).append (listOf_two (n := n) (by omega) hx hy)
      simpa [valToks, kw, parens, valTree] using this
  | .call fn x, m, n, h, hl, hm => by
    simp only [valToks, parens, List.length_append, List.length_cons, List.length_nil] at hl hm
    refine .of_prim (by simp [valToks]) fun rest hr => ?_
    cases m with
    | zero => omega
    | succ m =>
      have hx := (val_reads x m (m + 1) h.2 (by omega) (by omega)).expr (val_begins x h.2) (by omega)
        (rest := .punct ')' :: rest) rfl
      have := prim_call h.1 (val_begins x h.2).append (listOf_one (n := n) (by omega) hx)
      simpa [valToks, parens, valTree] using this
  | .quantified .., _, _, h, _, _ => h.elim
  | .absent, _, _, h, _, _ => h.elim

end

end Verif.Generator.Gram
