import Verif.Filter.Spec
/- Helper lemmas for the filter properties: writer, requested predicates, ordering. -/
namespace Verif.Filter

open Verif

variable {α : Type}

@[simp] theorem cmpStr_eq (c : Cmp) : cmpStr c = Cmp.sql c := by cases c <;> rfl

/-! ### split, trim, ts queries -/

theorem split_ne_nil (sep : Char) (s : Bytes) : split sep s ≠ [] := by
  cases s with
  | nil => simp [split]
  | cons c cs =>
    simp only [split]
    split
    · simp
    · split <;> simp

theorem split_not_mem (sep : Char) (s : Bytes) : ∀ p ∈ split sep s, sep ∉ p := by
  induction s with
  | nil => simp [split]
  | cons c cs ih =>
    intro p hp
    simp only [split] at hp
    split at hp
    · rcases List.mem_cons.1 hp with h | h
      · simp [h]
      · exact ih p h
    · rename_i hc
      split at hp
      · rename_i h; exact absurd h (split_ne_nil _ _)
      · rename_i q qs hq
        rcases List.mem_cons.1 hp with h | h
        · subst h
          have := ih q (by rw [hq]; simp)
          simp only [List.mem_cons, not_or]
          exact ⟨fun h => hc h.symm, this⟩
        · exact ih p (by rw [hq]; simp [h])

theorem split_intercalate (sep : Char) (s : Bytes) : [sep].intercalate (split sep s) = s := by
  induction s with
  | nil => simp [split]
  | cons c cs ih =>
    simp only [split]
    split
    · rename_i h
      subst h
      cases hs : split c cs with
      | nil => exact absurd hs (split_ne_nil _ _)
      | cons q qs =>
        rw [hs] at ih
        simp [List.intercalate, List.intersperse] at ih ⊢
        exact ih
    · split
      · rename_i h; exact absurd h (split_ne_nil _ _)
      · rename_i q qs hq
        rw [hq] at ih
        cases qs with
        | nil => simp [List.intercalate] at ih ⊢; exact ih
        | cons r rs => simp [List.intercalate, List.intersperse] at ih ⊢; exact ih

theorem split_head_ne_nil (sep : Char) (c : Char) (cs : Bytes) (h : c ≠ sep) :
    ∃ p ps, split sep (c :: cs) = (c :: p) :: ps := by
  simp only [split, h, if_false]
  split
  · exact ⟨[], [], rfl⟩
  · exact ⟨_, _, rfl⟩

theorem intercalate_cons (sep x : Bytes) (xs : List Bytes) :
    sep.intercalate (x :: xs) = x ++ (xs.map (sep ++ ·)).flatten := by
  induction xs generalizing x with
  | nil => simp [List.intercalate]
  | cons y ys ih =>
    have := ih y
    simp only [List.intercalate, List.intersperse, List.flatten_cons] at this ⊢
    rw [this]; simp

theorem intercalate_nil (sep : Bytes) : sep.intercalate [] = [] := by simp [List.intercalate]

theorem tsRest_eq (ss : List Bytes) (out : Bytes) :
    tsRest ss out = out ++ ((ss.filter (· ≠ [])).map (fun s => b!" & " ++ (s ++ b!":*"))).flatten := by
  induction ss generalizing out with
  | nil => simp [tsRest]
  | cons s ss ih =>
    simp only [tsRest]
    rw [ih]
    by_cases h : s = [] <;> simp [h]

theorem head_dropWhile (p : Char → Bool) (s : Bytes) (c : Char) (cs : Bytes)
    (h : s.dropWhile p = c :: cs) : p c = false := by
  induction s with
  | nil => simp at h
  | cons x xs ih =>
    rw [List.dropWhile_cons] at h
    split at h
    · exact ih h
    · rename_i hx
      injection h with h1 h2
      subst h1
      simpa using hx

theorem head_trimSpace (s : Bytes) (c : Char) (cs : Bytes) (h : trimSpace s = c :: cs) :
    isSpace c = false := by
  unfold trimSpace at h
  -- the reverse of a suffix-trimmed reversed list starts like the untrimmed list
  have h1 : ∃ t, trimLeft s = (trimLeft (trimLeft s).reverse).reverse ++ t := by
    have := List.takeWhile_append_dropWhile (p := isSpace) (l := (trimLeft s).reverse)
    refine ⟨((trimLeft s).reverse.takeWhile isSpace).reverse, ?_⟩
    rw [← List.reverse_append]
    unfold trimLeft at this ⊢
    rw [this, List.reverse_reverse]
  obtain ⟨t, ht⟩ := h1
  rw [h] at ht
  exact head_dropWhile isSpace s c (cs ++ t) (by simpa [trimLeft] using ht)

theorem toTSQuery_eq (s : Bytes) : toTSQuery s = tsQuery s := by
  unfold toTSQuery tsQuery terms
  cases hs : trimSpace s with
  | nil => simp [split, tsRest]
  | cons c cs =>
    have hc : c ≠ ' ' := by
      intro h
      have := head_trimSpace s c cs hs
      subst h
      simp [isSpace] at this
    obtain ⟨p, ps, hp⟩ := split_head_ne_nil ' ' c cs hc
    rw [hp]
    simp only [ne_eq, reduceCtorEq, not_false_eq_true, if_true]
    rw [tsRest_eq]
    simp [intercalate_cons, Function.comp_def]

/-! ### the writer renders templates -/

/-- Node to segment. -/
def Node.seg : Node α → Seg α
  | .binary c op v => .pred ⟨c, .cmp op v⟩
  | .unary c p => .pred ⟨c, .is p⟩
  | .text c s => .pred ⟨c, .search s⟩
  | .and => .and
  | .or => .or
  | .lparen => .opn
  | .rparen => .cls
  | .isIn c xs => .pred ⟨c, .isIn xs⟩
  | .any c k xs => .pred ⟨c, .anyOf k xs⟩

/-- Writing a template piece by piece. -/
def emit : List (Piece α) → Writer α → Option (Writer α)
  | [], w => some w
  | .lit s :: ps, w => emit ps (w.str s)
  | .hole v :: ps, w => (w.param v).bind (emit ps)

theorem emit_append (a b : List (Piece α)) (w : Writer α) :
    emit (a ++ b) w = (emit a w).bind (emit b) := by
  induction a generalizing w with
  | nil => simp [emit]
  | cons p ps ih =>
    cases p with
    | lit s => simp [emit, ih]
    | hole v => simp only [List.cons_append, emit]; cases w.param v <;> simp [ih]

theorem str_str (w : Writer α) (a b : Bytes) : (w.str a).str b = w.str (a ++ b) := by
  simp [Writer.str]

theorem writeIn_false (xs : List α) (w : Writer α) :
    writeIn xs false w = match xs with
      | [] => some w
      | _ => emit (.lit b!"," :: commaHoles xs) w := by
  induction xs generalizing w with
  | nil => simp [writeIn]
  | cons a r ih =>
    cases r with
    | nil => simp [writeIn, commaHoles, emit]
    | cons b r =>
      rw [writeIn]
      simp only [commaHoles, emit, Bool.false_eq_true, if_false]
      cases (w.str b!",").param (.elem a) with
      | none => rfl
      | some w' =>
        show writeIn (b :: r) false w' = _
        rw [ih]; rfl

theorem writeIn_true (xs : List α) (w : Writer α) : writeIn xs true w = emit (commaHoles xs) w := by
  cases xs with
  | nil => simp [writeIn, commaHoles, emit]
  | cons a r =>
    cases r with
    | nil => simp [writeIn, commaHoles, emit]
    | cons b r =>
      rw [writeIn]
      simp only [commaHoles, emit, if_true]
      cases w.param (.elem a) with
      | none => rfl
      | some w' =>
        show writeIn (b :: r) false w' = _
        rw [writeIn_false]; rfl

theorem castOf_eq (k : SliceKind) : castOf k = b!"::" ++ arrayTypeName k := by cases k <;> rfl

theorem write_eq (n : Node α) (w : Writer α) : n.write w = emit n.seg.pieces w := by
  cases n with
  | binary c op v =>
    simp only [Node.write, Node.seg, Seg.pieces, Pred.pieces, emit, str_str]
    cases (w.str (c ++ b!" " ++ op ++ b!" ")).param (.val v) <;> rfl
  | unary c p => simp [Node.write, Node.seg, Seg.pieces, Pred.pieces, emit, str_str]
  | text c s =>
    simp only [Node.write, Node.seg, Seg.pieces, Pred.pieces, emit, str_str, toTSQuery_eq]
    rfl
  | isIn c xs =>
    simp only [Node.write, Node.seg, Seg.pieces, Pred.pieces, emit, str_str, emit_append, writeIn_true]
    rfl
  | any c k xs =>
    simp only [Node.write, Node.seg, Seg.pieces, Pred.pieces, emit, str_str, castOf_eq]
    rfl
  | _ => simp [Node.write, Node.seg, Seg.pieces, emit]

theorem writeNodes_eq (ns : List (Node α)) (w : Writer α) :
    writeNodes ns w = emit ((ns.map Node.seg).flatMap Seg.pieces) w := by
  induction ns generalizing w with
  | nil => simp [writeNodes, emit]
  | cons n ns ih =>
    simp only [writeNodes, List.map_cons, List.flatMap_cons, emit_append, write_eq]
    show (emit _ w).bind _ = _
    congr 1
    funext w'
    exact ih w'

theorem param_ok (w : Writer α) (v : Param α) (h : w.p < maxParams) :
    w.param v = some ⟨w.out ++ ordinal (w.p + 1), w.p + 1, w.params ++ [v]⟩ := by
  simp [Writer.param, ordinalAt, h]

theorem param_none (w : Writer α) (v : Param α) (h : ¬ w.p < maxParams) : w.param v = none := by
  simp [Writer.param, ordinalAt, h]

theorem emit_eq (ps : List (Piece α)) (w : Writer α) :
    emit ps w = if (holes ps).length = 0 ∨ w.p + (holes ps).length ≤ maxParams
      then some ⟨w.out ++ render ps w.p, w.p + (holes ps).length, w.params ++ holes ps⟩
      else none := by
  induction ps generalizing w with
  | nil => simp [emit, holes, render]
  | cons p ps ih =>
    cases p with
    | lit s => simp [emit, holes, render, ih, Writer.str]
    | hole v =>
      simp only [emit, holes, render, Nat.add_one_ne_zero, false_or, List.length_cons]
      by_cases h : w.p < maxParams
      · rw [param_ok _ _ h]
        simp only [Option.bind_some, ih, ordinal, itoa, List.append_assoc, 
          List.cons_append, List.nil_append]
        by_cases h2 : (holes ps).length = 0
        · simp only [h2]; rw [if_pos (by simp), if_pos (by omega)]
        · simp only [h2, false_or]
          have : w.p + 1 + (holes ps).length = w.p + ((holes ps).length + 1) := by omega
          rw [this]
      · rw [param_none _ _ h]
        simp only [Option.bind_none]
        rw [if_neg]; omega

theorem whereSQL_eq (f : FilterS α) (pos : Nat) :
    whereSQL f pos =
      let ps := wherePieces (f.where_.map Node.seg)
      if (holes ps).length = 0 ∨ pos + (holes ps).length ≤ maxParams
      then some ⟨render ps pos, pos + (holes ps).length, holes ps⟩ else none := by
  unfold whereSQL wherePieces
  cases hw : f.where_ with
  | nil => simp [holes, render]
  | cons n ns =>
    simp only [List.length_cons, Nat.zero_lt_succ, if_true, List.map_cons, reduceCtorEq, if_false]
    rw [writeNodes_eq, emit_eq]
    simp [Writer.str, holes, render]

/-! ### requested predicates -/

@[simp] theorem push_where (c : Cons α) (n : Node α) :
    (c.push n).filter.where_ = c.filter.where_ ++ [n] := rfl
@[simp] theorem push_colmap (c : Cons α) (n : Node α) : (c.push n).colmap = c.colmap := rfl
@[simp] theorem push_tscol (c : Cons α) (n : Node α) : (c.push n).tscol = c.tscol := rfl
@[simp] theorem push_strict (c : Cons α) (n : Node α) : (c.push n).strict = c.strict := rfl

@[simp] theorem autoAnd_colmap (c : Cons α) : c.autoAnd.colmap = c.colmap := by
  unfold Cons.autoAnd; split <;> rfl
@[simp] theorem autoAnd_tscol (c : Cons α) : c.autoAnd.tscol = c.tscol := by
  unfold Cons.autoAnd; split <;> rfl
@[simp] theorem autoAnd_strict (c : Cons α) : c.autoAnd.strict = c.strict := by
  unfold Cons.autoAnd; split <;> rfl
@[simp] theorem autoOr_colmap (c : Cons α) : c.autoOr.colmap = c.colmap := by
  unfold Cons.autoOr; split <;> rfl
@[simp] theorem autoOr_tscol (c : Cons α) : c.autoOr.tscol = c.tscol := by
  unfold Cons.autoOr; split <;> rfl
@[simp] theorem autoOr_strict (c : Cons α) : c.autoOr.strict = c.strict := by
  unfold Cons.autoOr; split <;> rfl

theorem preds_append (a b : List (Seg α)) : preds (a ++ b) = preds a ++ preds b := by
  induction a with
  | nil => rfl
  | cons x xs ih => cases x <;> simp [preds, ih]

/-- Predicates of a Constructor's node list. -/
def Cons.preds (c : Cons α) : List (Pred α) := Filter.preds (c.filter.where_.map Node.seg)

theorem preds_push (c : Cons α) (n : Node α) :
    (c.push n).preds = c.preds ++ Filter.preds [n.seg] := by
  simp [Cons.preds, preds_append]

@[simp] theorem preds_autoAnd (c : Cons α) : c.autoAnd.preds = c.preds := by
  unfold Cons.autoAnd
  split
  · simp [preds_push, Node.seg, Filter.preds]
  · rfl

@[simp] theorem preds_autoOr (c : Cons α) : c.autoOr.preds = c.preds := by
  unfold Cons.autoOr
  split
  · simp [preds_push, Node.seg, Filter.preds]
  · rfl

/-- Everything of a Constructor that only `Init`/`StrictSwitch` change. -/
def Cons.env (c : Cons α) := (c.colmap, c.tscol)

theorem col_cases (c : Cons α) (column op : Bytes) (v : Val α) :
    (∃ n p, colPred column op v = some p ∧ n.seg = .pred p ∧ n.canAndOr = true ∧
      c.col column op v = c.autoAnd.push n) ∨
    (colPred column op v = none ∧ (c.col column op v = c ∨ c.col column op v = c.autoAnd)) := by
  unfold Cons.col colPred Cons.colAny Cons.colIn
  by_cases h1 : Cons.toUpper op = b!"ANY"
  · simp only [h1, if_true]
    cases v <;> simp
    exact ⟨_, rfl, rfl, rfl⟩
  · simp only [h1, if_false]
    by_cases h2 : Cons.toUpper op = b!"IN"
    · simp only [h2, if_true]
      cases v <;> simp
      exact ⟨_, rfl, rfl, rfl⟩
    · simp only [h2, if_false]
      cases v with
      | nil =>
        by_cases h3 : op = b!"="
        · simp only [h3, if_true]; exact .inl ⟨_, _, rfl, rfl, rfl, rfl⟩
        · by_cases h4 : op = b!"<>"
          · simp only [h4]; exact .inl ⟨_, _, rfl, rfl, rfl, rfl⟩
          · simp [h3, h4]
      | bool b =>
        by_cases h3 : op = b!"="
        · simp only [h3, if_true]; cases b <;> exact .inl ⟨_, _, rfl, rfl, rfl, rfl⟩
        · by_cases h4 : op = b!"<>"
          · simp only [h4]; cases b <;> exact .inl ⟨_, _, rfl, rfl, rfl, rfl⟩
          · cases b <;> simp [h3, h4]
      | slice k xs => exact .inl ⟨_, _, rfl, rfl, rfl, rfl⟩
      | other a => exact .inl ⟨_, _, rfl, rfl, rfl, rfl⟩

theorem preds_col (c : Cons α) (column op : Bytes) (v : Val α) :
    (c.col column op v).preds = c.preds ++ (colPred column op v).toList := by
  rcases col_cases c column op v with ⟨n, p, h1, h2, _, h3⟩ | ⟨h1, h2 | h2⟩
  · rw [h3, h1, preds_push, h2]; simp [Filter.preds]
  · rw [h2, h1]; simp
  · rw [h2, h1]; simp

theorem env_push (c : Cons α) (n : Node α) : (c.push n).env = c.env := rfl
theorem env_autoAnd (c : Cons α) : c.autoAnd.env = c.env := by unfold Cons.autoAnd; split <;> rfl
theorem env_autoOr (c : Cons α) : c.autoOr.env = c.env := by unfold Cons.autoOr; split <;> rfl

theorem col_env (c : Cons α) (column op : Bytes) (v : Val α) :
    (c.col column op v).env = c.env ∧ (c.col column op v).strict = c.strict := by
  rcases col_cases c column op v with ⟨n, p, h1, h2, _, h3⟩ | ⟨h1, h2 | h2⟩
  · rw [h3]; simp [env_push, env_autoAnd]
  · rw [h2]; simp
  · rw [h2]; simp [env_autoAnd]

theorem lookup_eq (c : Cons α) (key : Bytes) : c.lookup key = columnFor c.colmap key := rfl

theorem fql_env (fin : Option Err) (ts : List (Tok α)) (c : Cons α) :
    (c.fqlLoop fin ts).1.env = c.env ∧ (c.fqlLoop fin ts).1.strict = c.strict := by
  induction ts generalizing c with
  | nil => simp [Cons.fqlLoop]
  | cons t ts ih =>
    cases t with
    | lparen => simp only [Cons.fqlLoop]; rw [(ih _).1, (ih _).2]; simp [env_push, env_autoAnd]
    | rparen => simp only [Cons.fqlLoop]; rw [(ih _).1, (ih _).2]; simp [env_push]
    | and => simp only [Cons.fqlLoop]; rw [(ih _).1, (ih _).2]; simp [env_push]
    | or => simp only [Cons.fqlLoop]; rw [(ih _).1, (ih _).2]; simp [env_push]
    | rule key cmp val =>
      simp only [Cons.fqlLoop, cmpStr_eq]
      split
      · split
        · rw [(ih _).1, (ih _).2]; exact col_env ..
        · split
          · simp
          · rw [(ih _).1, (ih _).2]; exact col_env ..
      · split
        · simp
        · exact ih _

theorem colmap_of_env {c d : Cons α} (h : c.env = d.env) : c.colmap = d.colmap := by
  simp only [Cons.env, Prod.mk.injEq] at h; exact h.1
theorem tscol_of_env {c d : Cons α} (h : c.env = d.env) : c.tscol = d.tscol := by
  simp only [Cons.env, Prod.mk.injEq] at h; exact h.2

theorem preds_fql (fin : Option Err) (ts : List (Tok α)) (c : Cons α) :
    (c.fqlLoop fin ts).1.preds = c.preds ++ fqlPreds c.colmap c.strict ts := by
  induction ts generalizing c with
  | nil => simp [Cons.fqlLoop, fqlPreds]
  | cons t ts ih =>
    cases t with
    | lparen => simp [Cons.fqlLoop, fqlPreds, ih, preds_push, Node.seg, Filter.preds]
    | rparen => simp [Cons.fqlLoop, fqlPreds, ih, preds_push, Node.seg, Filter.preds]
    | and => simp [Cons.fqlLoop, fqlPreds, ih, preds_push, Node.seg, Filter.preds]
    | or => simp [Cons.fqlLoop, fqlPreds, ih, preds_push, Node.seg, Filter.preds]
    | rule key cmp val =>
      simp only [Cons.fqlLoop, cmpStr_eq, fqlPreds, lookup_eq]
      cases columnFor c.colmap key with
      | none =>
        simp only
        split
        · simp
        · exact ih _
      | some cl =>
        simp only
        cases cl.convert with
        | none =>
          simp only
          have he := col_env c cl.name (Cmp.sql cmp) (val.getD .nil)
          rw [ih, preds_col, colmap_of_env he.1, he.2, List.append_assoc]
        | some f =>
          simp only
          cases f (val.getD .nil) with
          | error m => simp
          | ok v =>
            simp only
            have he := col_env c cl.name (Cmp.sql cmp) v
            rw [ih, preds_col, colmap_of_env he.1, he.2, List.append_assoc]

theorem sort_frame (n : Nat) (s : Bytes) (c : Cons α) :
    let d := (Cons.sortLoop n c s).1
    d.env = c.env ∧ d.strict = c.strict ∧ d.filter.where_ = c.filter.where_ ∧
    d.filter.limit = c.filter.limit ∧ d.filter.offset = c.filter.offset := by
  induction n generalizing c s with
  | zero => simp [Cons.sortLoop]
  | succ n ih =>
    cases s with
    | nil => simp [Cons.sortLoop]
    | cons x xs =>
      rw [Cons.sortLoop]
      dsimp only
      split
      · split
        · rename_i col _
          have := ih (List.drop 1 (Cons.scanSeg (x :: xs)).2)
            (c.orderByV2 col.name (decide (x = '-')) col.nullable false)
          simpa [Cons.orderByV2, Cons.env] using this
        · split
          · simp
          · exact ih _ _
      · exact ih _ _

mutual
theorem run_frame (x : Call α) (c : Cons α) :
    (x.run c).env = c.env ∧ (x.run c).strict = x.strictAfter c.strict ∧
    (x.run c).preds = c.preds ++ x.requested c.colmap c.tscol c.strict := by
  cases x with
  | col column op v =>
    simp only [Call.run, Call.strictAfter, Call.requested]
    exact ⟨(col_env ..).1, (col_env ..).2, preds_col ..⟩
  | colIn column xs =>
    simp [Call.run, Call.strictAfter, Call.requested, Cons.colIn, env_push, env_autoAnd, preds_push,
      Node.seg, Filter.preds]
  | colAny column k xs =>
    simp [Call.run, Call.strictAfter, Call.requested, Cons.colAny, env_push, env_autoAnd, preds_push,
      Node.seg, Filter.preds]
  | textSearch s =>
    simp only [Call.run, Call.strictAfter, Call.requested, Cons.textSearch]
    by_cases h : c.tscol = []
    · simp [h]
    · have : c.tscol.length > 0 := List.length_pos_iff.2 h
      simp [h, this, env_push, env_autoAnd, preds_push, Node.seg, Filter.preds]
  | and => simp [Call.run, Call.strictAfter, Call.requested, env_autoAnd]
  | or => simp [Call.run, Call.strictAfter, Call.requested, env_autoOr]
  | andNest n =>
    have ih := runCalls_frame n (c.autoAnd.push .lparen)
    simp only [Call.run, Call.strictAfter, Call.requested]
    simp only [env_push, env_autoAnd, push_strict, autoAnd_strict, push_colmap, push_tscol,
      autoAnd_colmap, autoAnd_tscol] at ih
    refine ⟨ih.1, ih.2.1, ?_⟩
    rw [preds_push, ih.2.2]
    simp [preds_push, Node.seg, Filter.preds]
  | orNest n =>
    have ih := runCalls_frame n (c.autoOr.push .lparen)
    simp only [Call.run, Call.strictAfter, Call.requested]
    simp only [env_push, env_autoOr, push_strict, autoOr_strict, push_colmap, push_tscol,
      autoOr_colmap, autoOr_tscol] at ih
    refine ⟨ih.1, ih.2.1, ?_⟩
    rw [preds_push, ih.2.2]
    simp [preds_push, Node.seg, Filter.preds]
  | orderBy => simp [Call.run, Call.strictAfter, Call.requested, Cons.orderBy, Cons.env, Cons.preds]
  | orderByV2 => simp [Call.run, Call.strictAfter, Call.requested, Cons.orderByV2, Cons.env, Cons.preds]
  | limit n =>
    simp only [Call.run, Call.strictAfter, Call.requested, Cons.limit]
    split <;> simp [Cons.env, Cons.preds]
  | offset n =>
    simp only [Call.run, Call.strictAfter, Call.requested, Cons.offset]
    split <;> simp [Cons.env, Cons.preds]
  | page n =>
    simp only [Call.run, Call.strictAfter, Call.requested, Cons.page]
    split <;> simp [Cons.env, Cons.preds]
  | strictSwitch => simp [Call.run, Call.strictAfter, Call.requested, Cons.env, Cons.preds]
  | unmarshalSort s =>
    have := sort_frame (s.length + 1) s c
    simp only [Call.run, Call.strictAfter, Call.requested, Cons.unmarshalSort]
    refine ⟨this.1, this.2.1, ?_⟩
    simp [Cons.preds, this.2.2.1]
  | unmarshalFQL ts fin =>
    simp only [Call.run, Call.strictAfter, Call.requested]
    exact ⟨(fql_env ..).1, (fql_env ..).2, preds_fql ..⟩
theorem runCalls_frame (xs : List (Call α)) (c : Cons α) :
    (runCalls xs c).env = c.env ∧ (runCalls xs c).strict = strictAfter xs c.strict ∧
    (runCalls xs c).preds = c.preds ++ requested c.colmap c.tscol xs c.strict := by
  cases xs with
  | nil => simp [runCalls, strictAfter, requested]
  | cons x xs =>
    have h1 := run_frame x c
    have h2 := runCalls_frame xs (x.run c)
    simp only [runCalls, strictAfter, requested]
    rw [h1.1, h1.2.1, h1.2.2, colmap_of_env h1.1, tscol_of_env h1.1] at h2
    refine ⟨h2.1, h2.2.1, ?_⟩
    rw [h2.2.2, List.append_assoc]
end

end Verif.Filter
