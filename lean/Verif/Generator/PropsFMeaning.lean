import Verif.Generator.FilterMeaning
import Verif.Generator.PropsFGram3

/-
C93: the rows that a filter selects.
-/
namespace Verif.Generator.Gram
open Verif.Analysis Verif.Postgres Verif.Generator.Lex

section
variable {α V : Type} {R : FRow α V}

/-! ### Truth values -/

theorem and3_assoc (a b c : B3) : and3 (and3 a b) c = and3 a (and3 b c) := by
  rcases a with _ | _ | _ <;> rcases b with _ | _ | _ <;> rcases c with _ | _ | _ <;> rfl

theorem or3_assoc (a b c : B3) : or3 (or3 a b) c = or3 a (or3 b c) := by
  rcases a with _ | _ | _ <;> rcases b with _ | _ | _ <;> rcases c with _ | _ | _ <;> rfl

theorem and3_true (a : B3) : and3 a (some true) = a := by rcases a with _ | _ | _ <;> rfl
theorem true_and3 (a : B3) : and3 (some true) a = a := by rcases a with _ | _ | _ <;> rfl
theorem or3_false (a : B3) : or3 a (some false) = a := by rcases a with _ | _ | _ <;> rfl

theorem and3_eq_true (a b : B3) : and3 a b = some true ↔ a = some true ∧ b = some true := by
  rcases a with _ | _ | _ <;> rcases b with _ | _ | _ <;> decide

theorem all3_snoc (l : List B3) (b : B3) : all3 id (l ++ [b]) = and3 (all3 id l) b := by
  induction l with
  | nil => simp [all3, and3_true, true_and3]
  | cons x l ih =>
    simp only [all3, List.cons_append, List.foldr_cons] at ih ⊢
    rw [ih, and3_assoc]

theorem all3_true (l : List B3) (h : all3 id l = some true) : ∀ b ∈ l, b = some true := by
  induction l with
  | nil => intro b hb; cases hb
  | cons x l ih =>
    simp only [all3, List.foldr_cons] at h ih
    obtain ⟨h1, h2⟩ := (and3_eq_true _ _).1 h
    intro b hb
    rcases List.mem_cons.1 hb with rfl | hb
    · exact h1
    · exact ih h2 b hb

/-! ### Conditions one after the other -/

/-- The same as `seqVal`, from left to right. -/
def restVal (acc : B3) : List (Bool × B3) → B3
  | [] => acc
  | (false, b) :: l => restVal (and3 acc b) l
  | (true, b) :: l => or3 acc (restVal b l)

theorem runs_restVal : ∀ (l : List (Bool × B3)) (acc : List B3), any3 (all3 id) (runs acc l) = restVal (all3 id acc) l
  | [], acc => by simp [runs, any3, restVal, or3_false]
  | (false, b) :: l, acc => by
    rw [runs, runs_restVal l, all3_snoc, restVal]
  | (true, b) :: l, acc => by
    have := runs_restVal l [b]
    simp only [runs, restVal]
    rw [show any3 (all3 id) (acc :: runs [b] l) = or3 (all3 id acc) (any3 (all3 id) (runs [b] l)) from rfl, this]
    simp [all3, and3_true]

theorem seqVal_rest (x : Bool × B3) (l : List (Bool × B3)) : seqVal (x :: l) = restVal x.2 l := by
  obtain ⟨o, b⟩ := x
  rw [seqVal, runs_restVal]
  simp [all3, and3_true]

/-- What was asked for and what it says. -/
def Parts (R : FRow α V) : List (Bool × List (Filter.Seg α)) → List (Bool × B3) → Prop
  | [], [] => True
  | x :: l, y :: m => x.1 = y.1 ∧ Says R .fact x.2 y.2 ∧ Parts R l m
  | _, _ => False

theorem parts_or : ∀ {L : List (Bool × List (Filter.Seg α))} {W : List (Bool × B3)} {d s : List (Filter.Seg α)} {o a : B3},
    Parts R L W → Says R .disj d o → Says R .conj s a →
    Says R .disj (d ++ .or :: s ++ Filter.linked L) (or3 o (restVal a W))
  | [], [], d, s, o, a, _, hd, hs => by simpa [Filter.linked, restVal] using .or hd hs
  | (k, e) :: L, (k', b) :: W, d, s, o, a, h, hd, hs => by
    obtain ⟨h1, h2, h3⟩ := h
    simp only at h1 h2
    subst h1
    cases k with
    | false =>
      have := parts_or h3 hd (.and hs h2)
      simpa [Filter.linked, restVal] using this
    | true =>
      have := parts_or h3 (.or hd hs) (.fact h2)
      rw [or3_assoc] at this
      simpa [Filter.linked, restVal] using this
  | [], _ :: _, _, _, _, _, h, _, _ => h.elim
  | _ :: _, [], _, _, _, _, h, _, _ => h.elim

theorem parts_and : ∀ {L : List (Bool × List (Filter.Seg α))} {W : List (Bool × B3)} {s : List (Filter.Seg α)} {a : B3},
    Parts R L W → Says R .conj s a → Says R .disj (s ++ Filter.linked L) (restVal a W)
  | [], [], s, a, _, hs => by simpa [Filter.linked, restVal] using .conj hs
  | (k, e) :: L, (k', b) :: W, s, a, h, hs => by
    obtain ⟨h1, h2, h3⟩ := h
    simp only at h1 h2
    subst h1
    cases k with
    | false =>
      have := parts_and h3 (.and hs h2)
      simpa [Filter.linked, restVal] using this
    | true =>
      have := parts_or h3 (.conj hs) (.fact h2)
      simpa [Filter.linked, restVal] using this
  | [], _ :: _, _, _, h, _ => h.elim
  | _ :: _, [], _, _, h, _ => h.elim

theorem parts_says {L : List (Bool × List (Filter.Seg α))} {W : List (Bool × B3)} (h : Parts R L W) (hL : L ≠ []) :
    Says R .disj (Filter.joined L) (seqVal W) := by
  match L, W, h with
  | [], _, _ => exact absurd rfl hL
  | x :: L, y :: W, h =>
    rw [seqVal_rest, Filter.joined]
    exact parts_and h.2.2 (.fact h.2.1)

/-! ### Predicates -/

theorem opOf_holds {ts : List Tok} {g : Ex → Ex → Ex} (h : opOf ts = some g) (ps : List V) (a b : Ex) :
    exHolds R ps (g a b) = binHolds R ps ts a b := by
  unfold opOf at h
  split at h
  · split at h
    · exact absurd h (by simp)
    · simp only [Option.some.injEq] at h
      subst h
      rfl
  · simp only [Option.map_eq_some_iff] at h
    obtain ⟨e, he, rfl⟩ := h
    have h1 := List.find?_some he
    have h2 := List.mem_of_find?_eq_some he
    simp only [decide_eq_true_eq] at h1
    subst h1
    simp only [wordOps, List.mem_cons, List.not_mem_nil, or_false] at h2
    rcases h2 with rfl | rfl | rfl | rfl | rfl | rfl | rfl | rfl <;> rfl

theorem isOf_holds {ts : List Tok} {g : Ex → Ex} (h : isOf ts = some g) (ps : List V) (a : Ex) :
    exHolds R ps (g a) = (exVal R ps a).map (R.is ts) := by
  unfold isOf at h
  simp only [Option.map_eq_some_iff] at h
  obtain ⟨e, he, rfl⟩ := h
  have h1 := List.find?_some he
  have h2 := List.mem_of_find?_eq_some he
  simp only [decide_eq_true_eq] at h1
  subst h1
  simp only [isWords, List.mem_cons, List.not_mem_nil, or_false] at h2
  rcases h2 with rfl | rfl | rfl | rfl | rfl | rfl <;> rfl

theorem colOf_val {ts : List Tok} {c : Ex} (h : colOf ts = some c) (ps : List V) :
    exVal R ps c = some (R.col (colNames ts)) := by
  have hn : ∃ p, c = .col p := by
    unfold colOf at h
    split at h
    · split at h
      · exact ⟨_, (Option.some.inj h).symm⟩
      · exact absurd h (by simp)
    · exact absurd h (by simp)
  obtain ⟨p, rfl⟩ := hn
  simp [exVal, atomVal, colNames, h]

theorem param_val (a b : List V) (v : V) : exVal R (a ++ v :: b) (paramEx (a.length + 1)) = some v := by
  simp only [exVal, paramEx, atomVal, itoa]
  rw [Nat.ofDigitChars_toDigits (by omega) (by omega)]
  simp

theorem cast_param_val (a b : List V) (v : V) (ty : List Tok) :
    exVal R (a ++ v :: b) (.cast (paramEx (a.length + 1)) ty) = some (R.cast ty v) := by
  have := param_val (R := R) a b v
  simp only [exVal, paramEx] at this ⊢
  rw [this]
  rfl

theorem search_param_val (a b : List V) (v : V) :
    exVal R (a ++ v :: b) (.call b!"to_tsquery" [.const (.str b!"simple"), paramEx (a.length + 1)]) = some (R.tsquery v) := by
  have := param_val (R := R) a b v
  simp only [exVal, paramEx] at this ⊢
  rw [this]
  simp

theorem params_val (b : List V) : ∀ (l a : List V),
    ((List.range' (a.length + 1) l.length).map paramEx).mapM (exVal R (a ++ l ++ b)) = some l
  | [], a => by simp
  | v :: l, a => by
    have h1 := param_val (R := R) a (l ++ b) v
    have h2 := params_val b l (a ++ [v])
    simp only [List.length_append, List.length_cons, List.length_nil, Nat.zero_add, List.append_assoc, List.cons_append,
      List.nil_append] at h2
    simp only [List.length_cons, List.range'_succ, List.map_cons, List.mapM_cons, List.append_assoc, List.cons_append, h1]
    simp only [Option.bind_eq_bind, Option.bind_some, h2]
    rfl

theorem holes_comma : ∀ xs : List α, Filter.holes (Filter.commaHoles xs) = xs.map .elem
  | [] => rfl
  | [_] => rfl
  | a :: b :: r => by simp [Filter.commaHoles, Filter.holes, holes_comma (b :: r)]

theorem holes_app : ∀ (a b : List (Filter.Piece α)), Filter.holes (a ++ b) = Filter.holes a ++ Filter.holes b
  | [], _ => rfl
  | .lit _ :: a, b => by simp [Filter.holes, holes_app a b]
  | .hole _ :: a, b => by simp [Filter.holes, holes_app a b]

/-- The values that are sent for predicates. -/
def sentFor (R : FRow α V) (l : List (Filter.Pred α)) : List V :=
  (l.flatMap fun x => Filter.holes x.pieces).map R.sent

theorem pred_sent (x : Filter.Pred α) : (Filter.holes x.pieces).length = predParams x := by
  unfold Filter.Pred.pieces predParams
  split <;> simp [Filter.holes, holes_app, holes_comma, *]

theorem any3_map {U : Type} (f : V → B3) (g : U → V) (l : List U) : any3 f (l.map g) = any3 (fun x => f (g x)) l := by
  simp [any3, List.foldr_map]

theorem pred_holds {p : Nat} {x : Filter.Pred α} {t : Ex} (h : predTree p x = some t) (a b : List V) (ha : a.length = p) :
    exHolds R (a ++ sentFor R [x] ++ b) t = some (predHolds R x) := by
  subst ha
  unfold predTree at h
  simp only [Option.bind_eq_some_iff] at h
  obtain ⟨c, hc, h⟩ := h
  obtain ⟨column, form⟩ := x
  have hcv := fun ps => colOf_val (R := R) hc ps
  simp only [predHolds, sentFor, List.flatMap_cons, List.flatMap_nil, List.append_nil, Filter.Pred.pieces]
  cases form with
  | cmp op v =>
    simp only [Option.map_eq_some_iff] at h
    obtain ⟨g, hg, rfl⟩ := h
    rw [opOf_holds hg]
    simp only [Filter.holes, List.map_cons, List.map_nil, List.append_assoc, List.cons_append, List.nil_append, binHolds, hcv,
      param_val, Option.bind_some, Option.map_some]
  | is w =>
    simp only [Option.map_eq_some_iff] at h
    obtain ⟨g, hg, rfl⟩ := h
    rw [isOf_holds hg, hcv]
    rfl
  | isIn xs =>
    simp only at h
    split at h
    · exact absurd h (by simp)
    · simp only [Option.some.injEq] at h
      subst h
      simp only [Filter.holes, holes_app, holes_comma, List.append_nil, List.map_map, exHolds, leafHolds, hcv, Option.bind_some]
      have := params_val (R := R) b (xs.map (R.sent ∘ .elem)) a
      rw [List.length_map] at this
      rw [this]
      simp only [Option.map_some, any3_map, Function.comp]
  | anyOf k xs =>
    simp only [Option.some.injEq] at h
    subst h
    simp only [Filter.holes, List.map_cons, List.map_nil, List.append_assoc, List.cons_append, List.nil_append, exHolds,
      leafHolds, hcv, cast_param_val, Option.bind_some, Option.map_some, and_self, ite_true]
  | search s =>
    simp only [Option.some.injEq] at h
    subst h
    simp only [Filter.holes, List.map_cons, List.map_nil, List.append_assoc, List.cons_append, List.nil_append, exHolds,
      leafHolds, binHolds, hcv, search_param_val, Option.bind_some, Option.map_some]

/-! ### Conditions -/

theorem sent_append (l m : List (Filter.Pred α)) : sentFor R (l ++ m) = sentFor R l ++ sentFor R m := by
  simp [sentFor]

theorem meant_number {l : Level} {p q : Nat} {e : List (Filter.Seg α)} {t : Ex} (h : Meant l p e q t) :
    q = p + (sentFor R (Filter.preds e)).length := by
  induction h with
  | pred h => simp [Filter.preds, sentFor, pred_sent]
  | paren _ ih => simpa [Filter.preds, preds_append] using ih
  | fact _ ih => exact ih
  | and _ _ iha ihb => rw [ihb, iha, preds_append, sent_append]; simp [Filter.preds]; omega
  | conj _ ih => exact ih
  | or _ _ iha ihb => rw [ihb, iha, preds_append, sent_append]; simp [Filter.preds]; omega

/-- **C93** The tree that a clause is read as says what the clause says, if the parameters have the values that are
sent. -/
theorem C93_tree {l : Level} {p q : Nat} {e : List (Filter.Seg α)} {t : Ex} (h : Meant l p e q t) :
    ∃ v, Says R l e v ∧ ∀ a b : List V, a.length = p → exHolds R (a ++ sentFor R (Filter.preds e) ++ b) t = some v := by
  induction h with
  | pred h => exact ⟨_, .pred _, fun a b ha => pred_holds h a b ha⟩
  | paren _ ih =>
    obtain ⟨v, h1, h2⟩ := ih
    refine ⟨v, .paren h1, fun a b ha => ?_⟩
    simpa [Filter.preds, preds_append] using h2 a b ha
  | fact _ ih =>
    obtain ⟨v, h1, h2⟩ := ih
    exact ⟨v, .fact h1, h2⟩
  | conj _ ih =>
    obtain ⟨v, h1, h2⟩ := ih
    exact ⟨v, .conj h1, h2⟩
  | and hm _ iha ihb =>
    obtain ⟨v, h1, h2⟩ := iha
    obtain ⟨u, h3, h4⟩ := ihb
    refine ⟨_, .and h1 h3, fun a b ha => ?_⟩
    rw [preds_append, sent_append]
    have e1 := fun b' => h2 a b' ha
    have e2 := h4 (a ++ sentFor R (Filter.preds _)) b (by rw [List.length_append, ha, ← meant_number hm])
    simp only [Filter.preds, List.append_assoc] at e1 e2 ⊢
    simp only [exHolds, e1, e2, Option.bind_some, Option.map_some]
  | or hm _ iha ihb =>
    obtain ⟨v, h1, h2⟩ := iha
    obtain ⟨u, h3, h4⟩ := ihb
    refine ⟨_, .or h1 h3, fun a b ha => ?_⟩
    rw [preds_append, sent_append]
    have e1 := fun b' => h2 a b' ha
    have e2 := h4 (a ++ sentFor R (Filter.preds _)) b (by rw [List.length_append, ha, ← meant_number hm])
    simp only [Filter.preds, List.append_assoc] at e1 e2 ⊢
    simp only [exHolds, e1, e2, Option.bind_some, Option.map_some]

/-- What says something is read as a tree that says it. -/
theorem says_meant {l : Level} {e : List (Filter.Seg α)} {v : B3} (h : Says R l e v) : (∀ x ∈ Filter.preds e, PredGram x) →
    ∀ p, ∃ q t, Meant l p e q t ∧ ∀ a b : List V, a.length = p → exHolds R (a ++ sentFor R (Filter.preds e) ++ b) t = some v := by
  induction h with
  | pred x =>
    intro hp p
    obtain ⟨t, ht⟩ := predTree_some (hp x (by simp [Filter.preds])) p
    exact ⟨_, _, .pred ht, fun a b ha => pred_holds ht a b ha⟩
  | paren _ ih =>
    intro hp p
    obtain ⟨q, t, h1, h2⟩ := ih (fun x hx => hp x (by simpa [Filter.preds, preds_append] using hx)) p
    refine ⟨q, t, .paren h1, fun a b ha => ?_⟩
    simpa [Filter.preds, preds_append] using h2 a b ha
  | fact _ ih =>
    intro hp p
    obtain ⟨q, t, h1, h2⟩ := ih hp p
    exact ⟨q, t, .fact h1, h2⟩
  | conj _ ih =>
    intro hp p
    obtain ⟨q, t, h1, h2⟩ := ih hp p
    exact ⟨q, t, .conj h1, h2⟩
  | and _ _ iha ihb =>
    intro hp p
    obtain ⟨q, t, hm, h2⟩ := iha (fun x hx => hp x (by rw [preds_append]; exact List.mem_append_left _ hx)) p
    obtain ⟨r, u, h3, h4⟩ := ihb (fun x hx => hp x (by rw [preds_append]; exact List.mem_append_right _ hx)) q
    refine ⟨_, _, .and hm h3, fun a b ha => ?_⟩
    rw [preds_append, sent_append]
    have e1 := fun b' => h2 a b' ha
    have e2 := h4 (a ++ sentFor R (Filter.preds _)) b (by rw [List.length_append, ha, ← meant_number hm])
    simp only [Filter.preds, List.append_assoc] at e1 e2 ⊢
    simp only [exHolds, e1, e2, Option.bind_some, Option.map_some]
  | or _ _ iha ihb =>
    intro hp p
    obtain ⟨q, t, hm, h2⟩ := iha (fun x hx => hp x (by rw [preds_append]; exact List.mem_append_left _ hx)) p
    obtain ⟨r, u, h3, h4⟩ := ihb (fun x hx => hp x (by rw [preds_append]; exact List.mem_append_right _ hx)) q
    refine ⟨_, _, .or hm h3, fun a b ha => ?_⟩
    rw [preds_append, sent_append]
    have e1 := fun b' => h2 a b' ha
    have e2 := h4 (a ++ sentFor R (Filter.preds _)) b (by rw [List.length_append, ha, ← meant_number hm])
    simp only [Filter.preds, List.append_assoc] at e1 e2 ⊢
    simp only [exHolds, e1, e2, Option.bind_some, Option.map_some]

/-- **C93** A clause says one thing. -/
theorem C93_unique {e : List (Filter.Seg α)} {v u : B3} (hp : ∀ x ∈ Filter.preds e, PredGram x) (h : Says R .disj e v)
    (h' : Says R .disj e u) : v = u := by
  obtain ⟨q, t, h1, h2⟩ := says_meant h hp 0
  obtain ⟨q', t', h3, h4⟩ := says_meant h' hp 0
  obtain ⟨rfl, _⟩ := C90_meant_unique h1 h3
  have := h2 [] [] rfl
  rw [h4 [] [] rfl] at this
  simpa using this.symm

end

end Verif.Generator.Gram
