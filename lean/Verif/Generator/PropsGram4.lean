import Verif.Generator.PropsGram3

/- Property C89: how statements are read. -/
namespace Verif.Generator.Gram
open Verif.Analysis Verif.Postgres Verif.Generator.Lex Print

/-! ### The clauses -/

/-- What is left begins with one of the words, or a parenthesis closes. -/
def Leads (ks : List Bytes) : List Tok → Prop
  | [] => True
  | .word w :: _ => w ∈ ks
  | .punct c :: _ => c = ')'
  | _ => False

theorem Leads.mono {ks ls : List Bytes} {r : List Tok} (h : Leads ks r) (hs : ∀ w ∈ ks, w ∈ ls) : Leads ls r := by
  cases r with
  | nil => trivial
  | cons t r =>
    cases t with
    | word w => exact hs w h
    | punct c => exact h
    | _ => exact h.elim

theorem Leads.ends {ks : List Bytes} {r : List Tok} {c : Tok → Bool} (h : Leads ks r)
    (hk : ks.all (fun w => !c (.word w)) = true) (hc : c (.punct ')') = false) : Ends c r := by
  cases r with
  | nil => trivial
  | cons t r =>
    cases t with
    | word w => simpa [Ends] using List.all_eq_true.1 hk w h
    | punct c => cases h; exact hc
    | _ => exact h.elim

theorem Leads.no {ks : List Bytes} {r : List Tok} {w : Bytes} (h : Leads ks r) (hw : w ∉ ks) : ∀ s, r ≠ .word w :: s := by
  rintro s rfl
  exact hw h

theorem Leads.noComma {ks : List Bytes} {r : List Tok} (h : Leads ks r) : ∀ s, r ≠ .punct ',' :: s := by
  rintro s rfl
  exact absurd h (by decide : ',' ≠ ')')

theorem opt_none {β : Type} {w : Bytes} {ws : List Bytes} {p : Ps β} {ts : List Tok} (h : ∀ s, ts ≠ .word w :: s) :
    opt w ws p ts = some (none, ts) := by
  unfold opt
  split
  · next v r =>
    rw [if_neg]
    rintro rfl
    exact h r rfl
  · rfl

theorem opt_some {β : Type} {w : Bytes} {ws : List Bytes} {p : Ps β} {ts rest : List Tok} {x : β}
    (h : after ws p ts = some (x, rest)) : opt w ws p (.word w :: ts) = some (some x, rest) := by
  simp [opt, h]

/-- A clause that begins with the word, and what it is read as. -/
structure Clause {β : Type} (k : Bytes) (p : Ps β) (W : List Tok) (w : β) : Prop where
  reads : ∀ ks rest, Leads ks rest → ks.all (fun w => !cont7 (.word w)) = true → b!"nulls" ∉ ks → k ∉ ks →
    p (W ++ rest) = some (w, rest)
  leads : ∀ ks rest, Leads ks rest → Leads (k :: ks) (W ++ rest)

section
variable {α : Type} {f : α → Bytes}

/-- Tokens that are read as the expression. -/
def Reader (n : Nat) (ts : List Tok) (x : Ex) : Prop := ∀ rest, Ends cont7 rest → expr n (ts ++ rest) = some (x, rest)

theorem Reader.val {n : Nat} {v : VExpr α} (h : ValGram f v) (hn : (valToks f v).length ≤ n) :
    Reader n (valToks f v) (valTree f v) := fun _ hr => val_expr h hn hr

theorem Reader.conds {n : Nat} {l : BList α} (h : CondsGram f l) (hn : (condsToks f l).length ≤ n) :
    Reader n (condsToks f l) (condsTree f l) := fun _ hr => conds_reads l n _ h hn hr

/-- A list of expressions. -/
theorem list_reads {n k : Nat} {l : List (List Tok × Ex)} {rest : List Tok} (hne : l ≠ [])
    (hl : ∀ y ∈ l, Reader n y.1 y.2) (hn : l.length ≤ k) (hr : Ends cont7 rest) (hc : ∀ s, rest ≠ .punct ',' :: s) :
    listOf (expr n) k (commaToks (l.map (·.1)) ++ rest) = some (l.map (·.2), rest) :=
  listOf_comma (·.1) (·.2) hc l k hne hn (fun y hy => hl y hy rest hr) fun y hy r => hl y hy (.punct ',' :: r) rfl

/-- A list of values. -/
theorem vals_reads {n : Nat} {l : List (VExpr α)} {rest : List Tok} (hne : l ≠ []) (hl : ValsGram f l)
    (hn : (commaToks (l.map (valToks f))).length ≤ n) (hr : Ends cont7 rest) (hc : ∀ s, rest ≠ .punct ',' :: s) :
    listOf (expr n) n (commaToks (l.map (valToks f)) ++ rest) = some (l.map (valTree f), rest) := by
  have hlen := comma_length (valToks f) l fun v hv => (val_begins v (hl v hv)).length
  have he := comma_each (valToks f) l
  exact listOf_comma (valToks f) (valTree f) hc l n hne (by omega)
    (fun v hv => val_expr (hl v hv) (by have := he v hv; omega) hr)
    fun v hv r => val_expr (hl v hv) (by have := he v hv; omega) rfl

theorem name_reads (n : Bytes) (rest : List Tok) : name1 ([.name n] ++ rest) = some (.name n, rest) := by
  simp [name1, isName]

theorem names_reads {n : Nat} {l : List Bytes} {rest : List Tok} (hne : l ≠ []) (hn : (namesToks l).length ≤ n) :
    names n (namesToks l ++ rest) = some (l.map .name, rest) := by
  have hlen := comma_length (fun x : Bytes => [Tok.name x]) l (by simp)
  have hl : l.length ≤ n := by
    simp only [namesToks, parens, List.length_append, List.length_cons, List.length_nil] at hn
    omega
  have := listOf_comma (p := name1) (fun x : Bytes => [Tok.name x]) .name (rest := .punct ')' :: rest)
    (fun s h => by cases h) l n hne hl (fun x _ => name_reads x _) fun x _ r => name_reads x _
  unfold names namesToks parens inParens
  simp only [List.cons_append, List.append_assoc, List.nil_append]
  rw [this]
  rfl

theorem noDot_of {r : List Tok} (h : Ends cont0 r) : NoDot r := by
  cases r with
  | nil => trivial
  | cons t r => cases t with
    | punct c =>
      show c ≠ '.'
      rintro rfl
      cases h
    | _ => trivial

/-- A table; what follows is no point and not AS. -/
theorem relation_reads {r : RelIdent} {rest : List Tok} (h : RelGram r) (hd : NoDot rest)
    (ha : ∀ s, rest ≠ .word b!"as" :: s) : relation (relToks r ++ rest) = some (relTree r, rest) := by
  have key : ∀ q : List Tok, (∀ t ∈ q, isName t = true) → q.length ≤ 1 → ∀ rest', NoDot rest' →
      ∃ t s, (dotted (q ++ [.name r.name])).drop 1 ++ rest' = t :: s ∧ isName t = true ∧
        dots s = ((q ++ [Tok.name r.name]).drop 1, rest') ∧ (q ++ [Tok.name r.name]).head? = some t := by
    intro q hq hl rest' hr
    match q, hl with
    | [], _ =>
      refine ⟨.name r.name, rest', rfl, rfl, ?_, rfl⟩
      exact dots_dotted [] rest' (by simp) hr
    | [t], _ =>
      refine ⟨t, .punct '.' :: .name r.name :: rest', rfl, hq t (.head _), ?_, rfl⟩
      exact dots_dotted [.name r.name] rest' (by simp [isLabel]) hr
  have hq : ∀ rest', NoDot rest' → ∃ t s, qualToks r.qualifier ++ .name r.name :: rest' = t :: s ∧ isName t = true ∧
      t :: (dots s).1 = (relTree r).path ∧ (dots s).2 = rest' := by
    intro rest' hr
    by_cases hlen : r.qualifier.length > 0
    · obtain ⟨t, s, h1, h2, h3, h4⟩ := key [.word (lower r.qualifier)] (by simp [isName, h.1 hlen]) (by simp) rest' hr
      refine ⟨t, s, ?_, h2, ?_, by rw [h3]⟩
      · rw [← h1]; simp [qualToks, hlen, dotted]
      · simp at h4; simp [relTree, hlen, h3, h4]
    · obtain ⟨t, s, h1, h2, h3, h4⟩ := key [] (by simp) (by simp) rest' hr
      refine ⟨t, s, ?_, h2, ?_, by rw [h3]⟩
      · rw [← h1]; simp [qualToks, hlen, dotted]
      · simp at h4; simp [relTree, hlen, h3, h4]
  by_cases hal : r.alias.length > 0
  · obtain ⟨t, s, h1, h2, h3, h4⟩ := hq (.word b!"as" :: .word (lower r.alias) :: rest) trivial
    have hn : isName (.word (lower r.alias)) = true := h.2 hal
    have hT : relTree r = ⟨(relTree r).path, some (.word (lower r.alias))⟩ := by simp [relTree, hal]
    rw [relToks, if_pos hal]
    simp only [kw, List.append_assoc, List.cons_append, List.nil_append]
    rw [h1, hT]
    simp [relation, h2, h4, hn, h3]
  · obtain ⟨t, s, h1, h2, h3, h4⟩ := hq rest hd
    have hT : relTree r = ⟨(relTree r).path, none⟩ := by simp [relTree, hal]
    rw [relToks, if_neg hal]
    simp only [List.append_assoc, List.cons_append, List.nil_append]
    rw [h1, hT]
    unfold relation
    simp only [h2, if_true]
    rw [h4, h3]
    split
    · next w a s' =>
      rw [if_neg]
      rintro rfl
      exact ha _ rfl
    · rfl

/-- The words that can begin a join. -/
def joinWords : List Bytes := [b!"join", b!"cross", b!"inner", b!"left", b!"right", b!"full"]

theorem isNil_iff {l : BList α} : isNil l = true ↔ l = .nil := by cases l <;> simp [isNil]

theorem conds_not_nil {l : BList α} (h : CondsGram f l) : isNil l = false := by
  cases l with
  | nil => rw [CondsGram] at h; exact h.elim
  | cons => rfl

/-- A join, after the word JOIN. -/
theorem join_reads {n : Nat} {j : TableJoin α} {ks : List Bytes} {rest : List Tok} (h : JoinGram f j)
    (hn : (tableJoinToks f j).length ≤ n) (hr : Leads ks rest)
    (hk : ks.all (fun w => !cont7 (.word w)) = true) (has : b!"as" ∉ ks) :
    join n (joinWord j.type) (relToks j.rel ++ ((if isNil j.cond then [] else kw b!"on" ++ condsToks f j.cond) ++ rest)) =
      some (joinTree f j, rest) := by
  have hends := hr.ends (c := cont7) hk rfl
  have hlen : (if isNil j.cond then [] else kw b!"on" ++ condsToks f j.cond).length ≤ n := by
    simp only [tableJoinToks, List.length_append] at hn; omega
  unfold join joinTree
  obtain ⟨h1, h2⟩ := h
  by_cases hc : j.type = some .cross
  · rw [if_pos hc] at h2
    rw [if_pos h2, if_pos h2, List.nil_append, relation_reads h1 (noDot_of hends.to6.to5.to4.to3.to2.to1.to0) (hr.no has)]
    simp [hc, joinWord]
  · rw [if_neg hc] at h2
    have hnil := conds_not_nil h2
    simp only [hnil, Bool.false_eq_true, if_false] at hlen ⊢
    rw [relation_reads h1 (by trivial) (by simp [kw])]
    have hk : joinWord j.type ≠ b!"cross" := by
      cases ht : j.type with
      | none => decide
      | some t => cases t <;> first | decide | exact absurd ht hc
    simp only [Option.bind_some, hk, if_false]
    have := Reader.conds h2 (n := n) (by simp only [kw, List.length_append] at hlen; omega) rest hends
    simp [kw, after, this]

/-- The joins. -/
theorem joins_reads {n : Nat} {ks : List Bytes} {rest : List Tok} (hr : Leads ks rest)
    (hk : (joinWords ++ ks).all (fun w => !cont7 (.word w)) = true) (has : b!"as" ∉ joinWords ++ ks)
    (hj : ∀ w ∈ joinWords, w ∉ ks) : ∀ (js : List (TableJoin α)) (k : Nat), (∀ j ∈ js, JoinGram f j) →
    (js.flatMap (tableJoinToks f)).length ≤ n → js.length + 1 ≤ k →
    joins n k (js.flatMap (tableJoinToks f) ++ rest) = some (js.map (joinTree f), rest)
  | [], k, _, _, hk' => by
    cases k with
    | zero => simp at hk'
    | succ k =>
      show joins n (k + 1) rest = some ([], rest)
      unfold joins
      split
      · omega
      · next w r _ =>
        have h1 : w ≠ b!"join" := by rintro rfl; exact hj _ (by decide) hr
        have h2 : isJoin w = false := by
          cases hh : isJoin w with
          | false => rfl
          | true =>
            simp only [isJoin, Bool.or_eq_true, decide_eq_true_eq] at hh
            rcases hh with (((rfl | rfl) | rfl) | rfl) | rfl <;> exact absurd hr (hj _ (by decide))
        simp [h1, h2]
      · rfl
  | j :: js, k, hg, hn, hk' => by
    cases k with
    | zero => simp at hk'
    | succ k =>
      simp only [List.flatMap_cons, List.length_append] at hn
      have ih := joins_reads (n := n) hr hk has hj js k (fun x hx => hg x (.tail _ hx)) (by omega) (by simpa using hk')
      have hlead : Leads (joinWords ++ ks) (js.flatMap (tableJoinToks f) ++ rest) := by
        cases js with
        | nil => exact hr.mono fun w hw => List.mem_append.2 (.inr hw)
        | cons x xs =>
          show Leads (joinWords ++ ks) (tableJoinToks f x ++ xs.flatMap (tableJoinToks f) ++ rest)
          rw [tableJoinToks]
          cases ht : x.type with
          | none => exact List.mem_append.2 (.inl (by decide))
          | some t => cases t <;> exact List.mem_append.2 (.inl (by decide))
      have h1 := join_reads (hg j (.head _)) (n := n) (by omega) hlead hk has
      simp only [List.flatMap_cons, List.append_assoc]
      rw [tableJoinToks]
      simp only [List.append_assoc]
      cases ht : j.type with
      | none =>
        rw [ht] at h1
        simp only [joinToks, kw, List.nil_append, List.cons_append, joins, if_true]
        rw [show joinWord none = [] from rfl] at h1
        simp only [kw, List.cons_append, List.nil_append] at h1
        rw [h1]
        simp [ih]
      | some t =>
        rw [ht] at h1
        cases t <;>
        · simp only [joinWord] at h1
          simp only [joinToks, kw, List.nil_append, List.cons_append, joins]
          rw [if_neg (by decide), if_pos (by decide)]
          simp only [kw, List.cons_append, List.nil_append] at h1
          simp only [after, if_true]
          rw [h1]
          simp [ih]

/-! ### The other clauses -/

theorem where_reads {n : Nat} {w : Option (BList α)} {ks : List Bytes} {rest : List Tok} (h : WhereGram f w)
    (hn : (whereToks f w).length ≤ n) (hr : Leads ks rest) (hk : ks.all (fun w => !cont7 (.word w)) = true)
    (hw : b!"where" ∉ ks) : whereP n (whereToks f w ++ rest) = some (w.map (condsTree f), rest) := by
  unfold whereP
  cases w with
  | none => exact opt_none (hr.no hw)
  | some l =>
    refine opt_some (rest := rest) ?_
    exact Reader.conds (h l rfl) (by simp [whereToks, clauseToks, kw] at hn; omega) rest (hr.ends hk rfl)

theorem returning_reads {n : Nat} {r : List (VExpr α)} {ks : List Bytes} {rest : List Tok} (h : ValsGram f r)
    (hn : (returningToks f r).length ≤ n) (hr : Leads ks rest) (hk : ks.all (fun w => !cont7 (.word w)) = true)
    (hw : b!"returning" ∉ ks) : returningP n (returningToks f r ++ rest) = some (r.map (valTree f), rest) := by
  unfold returningP returningToks
  cases r with
  | nil =>
    have := opt_none (ws := []) (p := listOf (expr n) n) (hr.no hw)
    simp only [List.length_nil, if_true, List.nil_append, this]
    rfl
  | cons v vs =>
    rw [returningToks, if_neg (by simp)] at hn
    have := opt_some (w := b!"returning") (ws := []) (vals_reads (n := n) (l := v :: vs) (by simp) h
      (by simp only [kw, List.length_append] at hn; omega) (hr.ends hk rfl) hr.noComma)
    rw [if_neg (by simp)]
    simp only [kw, List.cons_append, List.nil_append]
    rw [this]
    rfl

theorem col_reader {n : Nat} {c : ColIdent} (h : WordOk c.qualifier) (hn : (colToks c).length ≤ n) :
    Reader n (colToks c) (.col (colPath c)) :=
  Reader.val (f := fun _ : Unit => []) (v := .col c) h hn

theorem order1_reads {n : Nat} {o : OrderBy} {rest : List Tok} (h : WordOk o.column.qualifier)
    (hn : (orderToks o).length ≤ n) : order1 n (orderToks o ++ rest) = some (orderTree o, rest) := by
  unfold order1 orderToks
  simp only [List.append_assoc]
  rw [col_reader h (by simp only [orderToks, List.length_append] at hn; omega)]
  · cases hd : o.desc <;> cases hf : o.nullsFirst <;> simp [kw, orderTree, nullsP, hd, hf]
  · cases o.desc <;> rfl

theorem orderBy_reads {n : Nat} {o : List OrderBy} {ks : List Bytes} {rest : List Tok}
    (h : ∀ x ∈ o, WordOk x.column.qualifier) (hn : (orderByToks o).length ≤ n) (hr : Leads ks rest)
    (hw : b!"order" ∉ ks) : orderP n (orderByToks o ++ rest) = some (o.map orderTree, rest) := by
  unfold orderP orderByToks
  cases o with
  | nil =>
    have := opt_none (ws := [b!"by"]) (p := listOf (order1 n) n) (hr.no hw)
    simp only [List.length_nil, if_true, List.nil_append, this]
    rfl
  | cons x xs =>
    rw [orderByToks, if_neg (by simp)] at hn
    rw [if_neg (by simp)]
    have he := comma_each orderToks (x :: xs)
    have hl := comma_length orderToks (x :: xs) (by intro y _; simp only [orderToks, kw, List.length_append, List.length_cons]; omega)
    simp only [kw, List.length_append] at hn
    have := listOf_comma (p := order1 n) orderToks orderTree hr.noComma (x :: xs) n (by simp) (by omega)
      (fun y hy => order1_reads (h y hy) (by have := he y hy; omega))
      fun y hy r => order1_reads (h y hy) (by have := he y hy; omega)
    have := opt_some (w := b!"order") (ws := [b!"by"]) (p := listOf (order1 n) n) (ts := .word b!"by" ::
      (commaToks ((x :: xs).map orderToks) ++ rest)) this
    simp only [kw, List.cons_append, List.nil_append]
    rw [this]
    rfl

theorem limit_reads {n : Nat} {w : Bytes} {l : LimitVal α} {ks : List Bytes} {rest : List Tok} (h : LimitGram f l)
    (hn : (clauseToks (kw w) (limitToks f l)).length ≤ n) (hr : Leads ks rest)
    (hk : ks.all (fun w => !cont7 (.word w)) = true) (hw : w ∉ ks) :
    opt w [] (expr n) (clauseToks (kw w) (limitToks f l) ++ rest) = some (limitTree f l, rest) := by
  cases l with
  | none => exact opt_none (hr.no hw)
  | int m =>
    refine opt_some (rest := rest) ?_
    simp only [limitToks, clauseToks, kw, List.length_append, List.length_cons] at hn
    exact const_expr (by omega) rfl (hr.ends hk rfl)
  | param a =>
    refine opt_some (rest := rest) ?_
    simp only [limitToks, clauseToks, kw, List.length_append, List.length_cons] at hn
    exact Reader.val (f := f) (v := .param a) h (by simp only [valToks]; omega) rest (hr.ends hk rfl)

end

end Verif.Generator.Gram
