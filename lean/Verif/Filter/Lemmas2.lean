import Verif.Filter.Lemmas
/- Helper lemmas for the filter properties: placeholder scanning, grammar, nesting. -/
namespace Verif.Filter

open Verif

variable {α : Type}

/-! ### invariants of the node list -/

def lastCan (l : List (Node α)) : Bool :=
  match l.getLast? with
  | none => false
  | some n => n.canAndOr

theorem canAndOr_eq (c : Cons α) : c.canAndOr = lastCan c.filter.where_ := rfl

@[simp] theorem lastCan_snoc (l : List (Node α)) (n : Node α) : lastCan (l ++ [n]) = n.canAndOr := by
  simp [lastCan]

theorem autoAnd_where (c : Cons α) : c.autoAnd.filter.where_ =
    c.filter.where_ ++ (if lastCan c.filter.where_ then [.and] else []) := by
  unfold Cons.autoAnd
  rw [canAndOr_eq]
  split <;> simp

theorem autoOr_where (c : Cons α) : c.autoOr.filter.where_ =
    c.filter.where_ ++ (if lastCan c.filter.where_ then [.or] else []) := by
  unfold Cons.autoOr
  rw [canAndOr_eq]
  split <;> simp

def Node.glue : Node α → Prop
  | .and => True
  | .or => True
  | .rparen => True
  | _ => False

structure WInv (P : List (Node α) → Prop) : Prop where
  glue : ∀ l g, g.glue → P l → P (l ++ [g])
  node : ∀ l n, lastCan l = false → P l → P (l ++ [n])

section
variable {P : List (Node α) → Prop} (H : WInv P)
include H

theorem WInv.autoAnd {c : Cons α} (h : P c.filter.where_) : P c.autoAnd.filter.where_ := by
  rw [autoAnd_where]
  split
  · exact H.glue _ _ trivial h
  · simpa using h

theorem WInv.autoOr {c : Cons α} (h : P c.filter.where_) : P c.autoOr.filter.where_ := by
  rw [autoOr_where]
  split
  · exact H.glue _ _ trivial h
  · simpa using h

omit H in
theorem lastCan_autoAnd (c : Cons α) : lastCan c.autoAnd.filter.where_ = false := by
  rw [autoAnd_where]
  split
  · simp [Node.canAndOr]
  · rename_i h; simpa using h

omit H in
theorem lastCan_autoOr (c : Cons α) : lastCan c.autoOr.filter.where_ = false := by
  rw [autoOr_where]
  split
  · simp [Node.canAndOr]
  · rename_i h; simpa using h

theorem WInv.andPush {c : Cons α} (n : Node α) (h : P c.filter.where_) :
    P (c.autoAnd.push n).filter.where_ :=
  H.node _ _ (lastCan_autoAnd c) (H.autoAnd h)

theorem WInv.orPush {c : Cons α} (n : Node α) (h : P c.filter.where_) :
    P (c.autoOr.push n).filter.where_ :=
  H.node _ _ (lastCan_autoOr c) (H.autoOr h)

theorem WInv.col {c : Cons α} (column op : Bytes) (v : Val α) (h : P c.filter.where_) :
    P (c.col column op v).filter.where_ := by
  rcases col_cases c column op v with ⟨n, p, h1, h2, _, h3⟩ | ⟨h1, h2 | h2⟩
  · rw [h3]; exact H.andPush _ h
  · rw [h2]; exact h
  · rw [h2]; exact H.autoAnd h

theorem WInv.fql (fin : Option Err) (ts : List (Tok α)) {c : Cons α} (h : P c.filter.where_) :
    P (c.fqlLoop fin ts).1.filter.where_ := by
  induction ts generalizing c with
  | nil => simpa [Cons.fqlLoop]
  | cons t ts ih =>
    cases t with
    | lparen => simp only [Cons.fqlLoop]; exact ih (H.andPush _ h)
    | rparen => simp only [Cons.fqlLoop]; exact ih (H.glue _ _ trivial h)
    | and => simp only [Cons.fqlLoop]; exact ih (H.glue _ _ trivial h)
    | or => simp only [Cons.fqlLoop]; exact ih (H.glue _ _ trivial h)
    | rule key cmp val =>
      simp only [Cons.fqlLoop, cmpStr_eq]
      split
      · split
        · exact ih (H.col _ _ _ h)
        · split
          · exact h
          · exact ih (H.col _ _ _ h)
      · split
        · exact h
        · exact ih h
end

mutual
theorem WInv.run {P : List (Node α) → Prop} (H : WInv P) (x : Call α) {c : Cons α} (h : P c.filter.where_) : P (x.run c).filter.where_ := by
  cases x with
  | col column op v => exact H.col _ _ _ h
  | colIn column xs => exact H.andPush _ h
  | colAny column k xs => exact H.andPush _ h
  | textSearch s =>
    simp only [Call.run, Cons.textSearch]
    split
    · exact H.andPush _ h
    · exact h
  | and => exact H.autoAnd h
  | or => exact H.autoOr h
  | andNest n =>
    simp only [Call.run]
    exact H.glue _ _ trivial (WInv.runs H n (H.andPush _ h))
  | orNest n =>
    simp only [Call.run]
    exact H.glue _ _ trivial (WInv.runs H n (H.orPush _ h))
  | orderBy => exact h
  | orderByV2 => exact h
  | limit n => simp only [Call.run, Cons.limit]; split <;> exact h
  | offset n => simp only [Call.run, Cons.offset]; split <;> exact h
  | page n => simp only [Call.run, Cons.page]; split <;> exact h
  | strictSwitch => exact h
  | unmarshalSort s =>
    have := sort_frame (s.length + 1) s c
    simp only [Call.run, Cons.unmarshalSort]
    rw [this.2.2.1]; exact h
  | unmarshalFQL ts fin => exact H.fql fin ts h
theorem WInv.runs {P : List (Node α) → Prop} (H : WInv P) (xs : List (Call α)) {c : Cons α} (h : P c.filter.where_) :
    P (runCalls xs c).filter.where_ := by
  cases xs with
  | nil => exact h
  | cons x xs => simp only [runCalls]; exact WInv.runs H xs (WInv.run H x h)
end

/-! ### scanning placeholders -/

theorem placeholders_lit (s t : Bytes) (h : '$' ∉ s) : placeholders (s ++ t) = placeholders t := by
  induction s with
  | nil => rfl
  | cons c cs ih =>
    simp only [List.mem_cons, not_or] at h
    have hc : ¬ c = '$' := fun e => h.1 e.symm
    simp [placeholders, hc, ih h.2]

/-- The text does not continue a number. -/
def NoDigit : Bytes → Prop
  | [] => True
  | c :: _ => c.isDigit = false

instance (t : Bytes) : Decidable (NoDigit t) := by
  cases t <;> unfold NoDigit <;> infer_instance

theorem takeWhile_digits (d t : Bytes) (hd : ∀ c ∈ d, c.isDigit = true) (ht : NoDigit t) :
    (d ++ t).takeWhile Char.isDigit = d := by
  induction d with
  | nil =>
    cases t with
    | nil => rfl
    | cons c cs => simp [List.takeWhile_cons, NoDigit] at ht ⊢; simp [ht]
  | cons c cs ih =>
    simp only [List.cons_append, List.takeWhile_cons, hd c (by simp), if_true]
    rw [ih (fun x hx => hd x (by simp [hx]))]

theorem placeholders_hole (n : Nat) (t : Bytes) (ht : NoDigit t) :
    placeholders (b!"$" ++ Nat.toDigits 10 n ++ t) = n :: placeholders t := by
  have hd : ∀ c ∈ Nat.toDigits 10 n, c.isDigit = true := fun c hc =>
    Nat.isDigit_of_mem_toDigits (by omega) (by omega) hc
  have h1 := takeWhile_digits (Nat.toDigits 10 n) t hd ht
  simp only [List.cons_append, List.nil_append, placeholders, h1, true_and]
  rw [if_pos Nat.toDigits_ne_nil, Nat.ofDigitChars_toDigits (by omega) (by omega)]
  rw [placeholders_lit]
  intro h
  have := hd _ h
  simp [Char.isDigit] at this

/-- Templates whose literals hold no `$` and where no hole is followed by a digit. -/
def Sep : List (Piece α) → Bytes → Prop
  | [], _ => True
  | .lit s :: ps, t => '$' ∉ s ∧ Sep ps t
  | .hole _ :: ps, t => (match ps with
    | [] => NoDigit t
    | .lit s :: _ => s ≠ [] ∧ NoDigit s
    | .hole _ :: _ => False) ∧ Sep ps t

theorem placeholders_render (ps : List (Piece α)) (t : Bytes) (h : Sep ps t) (pos : Nat) :
    placeholders (render ps pos ++ t) = List.range' (pos + 1) (holes ps).length ++ placeholders t := by
  induction ps generalizing pos with
  | nil => simp [render, holes]
  | cons p ps ih =>
    cases p with
    | lit s =>
      simp only [render, holes, List.append_assoc]
      rw [placeholders_lit _ _ h.1, ih h.2]
    | hole v =>
      simp only [render, holes, List.append_assoc, List.length_cons, List.range'_succ]
      rw [← List.append_assoc b!"$", placeholders_hole, ih h.2]
      · simp
      · cases ps with
        | nil => simpa [render] using h.1
        | cons q qs =>
          cases q with
          | lit s =>
            have := h.1
            cases s with
            | nil => simp at this
            | cons c cs => simpa [render, NoDigit] using this
          | hole => exact absurd h.1 id

/-- Every node allowing a connective is followed by a connective or a closing parenthesis. -/
def Glued : List (Node α) → Prop
  | [] => True
  | [_] => True
  | a :: b :: r => (a.canAndOr = true → b.glue) ∧ Glued (b :: r)

theorem glued_snoc (l : List (Node α)) (n : Node α) (h : Glued l)
    (hn : lastCan l = true → n.glue) : Glued (l ++ [n]) := by
  induction l with
  | nil => trivial
  | cons a r ih =>
    cases r with
    | nil => exact ⟨by simpa [lastCan] using hn, trivial⟩
    | cons b r =>
      refine ⟨h.1, ih h.2 ?_⟩
      simpa [lastCan] using hn

theorem glued_inv : WInv (Glued (α := α)) where
  glue := fun l g hg h => glued_snoc l g h (fun _ => hg)
  node := fun l n hl h => glued_snoc l n h (fun h' => by rw [hl] at h'; cases h')

theorem sep_append_lit (ps : List (Piece α)) (s : Bytes) (qs : List (Piece α)) (t : Bytes)
    (hs : s ≠ [] ∧ NoDigit s) (h1 : Sep ps s) (h2 : Sep (.lit s :: qs) t) :
    Sep (ps ++ .lit s :: qs) t := by
  induction ps with
  | nil => exact h2
  | cons p ps ih =>
    cases p with
    | lit u => exact ⟨h1.1, ih h1.2⟩
    | hole v =>
      refine ⟨?_, ih h1.2⟩
      cases ps with
      | nil => exact hs
      | cons q qs => cases q with
        | lit => exact h1.1
        | hole => exact absurd h1.1 id

theorem sep_commaHoles (xs : List α) (t : Bytes) (ht : NoDigit t) : Sep (commaHoles xs) t := by
  induction xs with
  | nil => trivial
  | cons a r ih =>
    cases r with
    | nil => exact ⟨ht, trivial⟩
    | cons b r =>
      exact ⟨⟨by simp, by decide⟩, by decide, ih⟩

theorem sep_pred (p : Pred α) (hp : p.noDollar) (t : Bytes) (ht : NoDigit t) : Sep p.pieces t := by
  obtain ⟨h1, h2⟩ := hp
  unfold Pred.pieces
  cases hf : p.form with
  | cmp op v =>
    rw [hf] at h2
    refine ⟨?_, ht, trivial⟩
    simp [h1]; exact h2
  | is w =>
    rw [hf] at h2
    refine ⟨?_, trivial⟩
    simp [h1]; exact h2
  | isIn xs =>
    refine ⟨by simp [h1], ?_⟩
    exact sep_append_lit _ _ _ _ ⟨by simp, by decide⟩ (sep_commaHoles _ _ (by decide))
      ⟨by decide, trivial⟩
  | anyOf k xs =>
    refine ⟨by simp [h1], ⟨by simp, ?_⟩, ?_, trivial⟩
    · simp only [NoDigit, List.cons_append]; decide
    · cases k <;> decide
  | search s =>
    exact ⟨by simp [h1], ⟨by simp, by decide⟩, by decide, trivial⟩

/-- Pieces of a segment followed by a literal or the end. -/
theorem sep_segs (ns : List (Node α)) (t : Bytes) (hg : Glued ns) (ht : NoDigit t)
    (hp : ∀ p ∈ preds (ns.map Node.seg), p.noDollar) :
    Sep ((ns.map Node.seg).flatMap Seg.pieces) t := by
  induction ns with
  | nil => trivial
  | cons n ns ih =>
    have hp' : ∀ p ∈ preds (ns.map Node.seg), p.noDollar := by
      intro p h
      apply hp
      rw [List.map_cons, ← List.singleton_append, preds_append]
      simp [h]
    have hg' : Glued ns := by
      cases ns with
      | nil => trivial
      | cons => exact hg.2
    have ih := ih hg' hp'
    rw [List.map_cons, List.flatMap_cons]
    by_cases hn : ∃ p, n.seg = .pred p
    · obtain ⟨p, hn⟩ := hn
      have hpd : p.noDollar := hp p (by rw [List.map_cons, hn]; simp [preds])
      rw [hn]
      show Sep (p.pieces ++ _) t
      cases ns with
      | nil => simpa using sep_pred p hpd t ht
      | cons m ms =>
        have hcan : n.canAndOr = true := by
          cases n <;> simp [Node.seg] at hn <;> rfl
        have hm := hg.1 hcan
        rw [List.map_cons, List.flatMap_cons] at ih ⊢
        have : ∃ s, m.seg.pieces = [.lit s] ∧ s ≠ [] ∧ NoDigit s := by
          cases m <;> simp [Node.glue] at hm
          · exact ⟨_, rfl, by simp, by decide⟩
          · exact ⟨_, rfl, by simp, by decide⟩
          · exact ⟨_, rfl, by simp, by decide⟩
        obtain ⟨s, hs, hs2, hs3⟩ := this
        rw [hs] at ih ⊢
        exact sep_append_lit _ _ _ _ ⟨hs2, hs3⟩ (sep_pred p hpd s hs3) ih
    · cases n <;> simp [Node.seg] at hn
      all_goals exact ⟨by decide, ih⟩

/-! ### ordering, limit, offset -/

theorem split_cons_sep (sep : Char) (cs : Bytes) : split sep (sep :: cs) = [] :: split sep cs := by
  simp [split]

theorem scanSeg_split (s : Bytes) :
    ((Cons.scanSeg s).2 = [] ∧ split ',' s = [(Cons.scanSeg s).1]) ∨
    (∃ r, (Cons.scanSeg s).2 = ',' :: r ∧ split ',' s = (Cons.scanSeg s).1 :: split ',' r) := by
  induction s with
  | nil => left; exact ⟨rfl, rfl⟩
  | cons c cs ih =>
    simp only [Cons.scanSeg]
    by_cases hc : c = ','
    · subst hc; right; exact ⟨cs, by simp, by simp [split]⟩
    · simp only [hc, if_false, split]
      rcases ih with ⟨h1, h2⟩ | ⟨r, h1, h2⟩
      · left; rw [h2]; exact ⟨h1, rfl⟩
      · right; exact ⟨r, h1, by rw [h2]⟩

theorem scanSeg_length (s : Bytes) : (Cons.scanSeg s).2.length ≤ s.length := by
  induction s with
  | nil => simp [Cons.scanSeg]
  | cons c cs ih =>
    simp only [Cons.scanSeg]
    split
    · simp
    · simp; omega

/-- ORDER BY text after more items. -/
def addItems (o : Bytes) (items : List OrderItem) : Bytes :=
  items.foldl (fun o i => if o = [] then i.text else o ++ b!", " ++ i.text) o

theorem addItems_append (o : Bytes) (a b : List OrderItem) :
    addItems o (a ++ b) = addItems (addItems o a) b := by simp [addItems]

theorem orderPrefix_eq (o column : Bytes) (desc : Bool) :
    Cons.orderPrefix o column desc =
      (if o = [] then [] else o ++ b!", ") ++ column ++ (if desc then b!" DESC" else b!" ASC") := by
  unfold Cons.orderPrefix
  cases o <;> cases desc <;> simp

theorem orderByV2_eq (c : Cons α) (column : Bytes) (d nl nf : Bool) :
    (c.orderByV2 column d nl nf).filter.orderby =
      addItems c.filter.orderby [⟨column, d, if nl then some nf else none⟩] := by
  simp only [Cons.orderByV2, orderPrefix_eq, addItems, OrderItem.text, List.foldl_cons, List.foldl_nil]
  cases c.filter.orderby <;> cases d <;> cases nl <;> cases nf <;> simp

theorem orderBy_eq (c : Cons α) (column : Bytes) (d nf : Bool) :
    (c.orderBy column d nf).filter.orderby =
      addItems c.filter.orderby [⟨column, d, some nf⟩] := by
  simp only [Cons.orderBy, orderPrefix_eq, addItems, OrderItem.text, List.foldl_cons, List.foldl_nil]
  cases c.filter.orderby <;> cases d <;> cases nf <;> simp

theorem sortSegKey_eq (x : Char) (xs seg : Bytes) (h : seg = (Cons.scanSeg (x :: xs)).1) :
    (Cons.sortSegKey (x = '-') seg, decide (x = '-')) = sortKey seg := by
  simp only [Cons.scanSeg] at h
  by_cases hc : x = ','
  · subst hc; subst h; rfl
  · simp only [hc, if_false] at h
    subst h
    by_cases hx : x = '-'
    · subst hx; rfl
    · simp only [hx, decide_false, Cons.sortSegKey, sortKey, Bool.false_eq_true, if_false]
      split
      · rename_i h; simp only [List.cons.injEq] at h; exact absurd h.1 hx
      · rfl

theorem sortLoop_eq (n : Nat) (s : Bytes) (c : Cons α) (hn : s.length < n) :
    (Cons.sortLoop n c s).1.filter.orderby =
      addItems c.filter.orderby (sortItems c.colmap c.strict (split ',' s)).1 ∧
    (Cons.sortLoop n c s).2 = (sortItems c.colmap c.strict (split ',' s)).2 := by
  induction n generalizing c s with
  | zero => omega
  | succ n ih =>
    cases s with
    | nil => simp [Cons.sortLoop, split, sortItems, sortKey, addItems]
    | cons x xs =>
      rw [Cons.sortLoop]
      dsimp only
      have hrest : sortItems c.colmap c.strict (split ',' ((Cons.scanSeg (x :: xs)).2.drop 1)) =
          sortItems c.colmap c.strict (split ',' (x :: xs)).tail := by
        rcases scanSeg_split (x :: xs) with ⟨h1, h2⟩ | ⟨r, h1, h2⟩
        · rw [h1, h2]; simp [split, sortItems, sortKey]
        · rw [h1, h2]; simp
      have hhead : split ',' (x :: xs) = (Cons.scanSeg (x :: xs)).1 :: (split ',' (x :: xs)).tail := by
        rcases scanSeg_split (x :: xs) with ⟨h1, h2⟩ | ⟨r, h1, h2⟩ <;> rw [h2] <;> simp
      have hlen : ((Cons.scanSeg (x :: xs)).2.drop 1).length < n := by
        have := scanSeg_length (x :: xs)
        rcases scanSeg_split (x :: xs) with ⟨h1, h2⟩ | ⟨r, h1, h2⟩
        · rw [h1]; simp at hn ⊢; omega
        · rw [h1] at this ⊢; simp at hn this ⊢; omega
      have hkey := sortSegKey_eq x xs _ rfl
      rw [hhead, sortItems, ← hkey]
      simp only [lookup_eq]
      generalize Cons.sortSegKey (decide (x = '-')) (Cons.scanSeg (x :: xs)).1 = key
      by_cases hk : key = []
      · simp only [hk, List.length_nil, Nat.lt_irrefl, if_false, if_true, gt_iff_lt]
        rw [← hrest]
        exact ih _ _ hlen
      · have hpos : key.length > 0 := List.length_pos_iff.2 hk
        simp only [hk, hpos, if_true, if_false]
        cases hcol : columnFor c.colmap key with
        | none =>
          simp only
          cases hs : c.strict with
          | true => simp [addItems]
          | false =>
            simp only [Bool.false_eq_true, if_false]
            rw [hs] at hrest
            rw [← hrest, ← hs]
            exact ih _ _ hlen
        | some col =>
          simp only
          have := ih ((Cons.scanSeg (x :: xs)).2.drop 1)
            (c.orderByV2 col.name (decide (x = '-')) col.nullable false) hlen
          have hf : (c.orderByV2 col.name (decide (x = '-')) col.nullable false).colmap = c.colmap := rfl
          have hf2 : (c.orderByV2 col.name (decide (x = '-')) col.nullable false).strict = c.strict := rfl
          rw [this.1, this.2, hf, hf2, hrest, orderByV2_eq]
          rw [← addItems_append]
          simp

/-- Parts of the state the WHERE methods leave alone. -/
def Cons.tail (c : Cons α) := (c.filter.orderby, c.filter.limit, c.filter.offset)

@[simp] theorem tail_push (c : Cons α) (n : Node α) : (c.push n).tail = c.tail := rfl
@[simp] theorem tail_autoAnd (c : Cons α) : c.autoAnd.tail = c.tail := by
  unfold Cons.autoAnd; split <;> rfl
@[simp] theorem tail_autoOr (c : Cons α) : c.autoOr.tail = c.tail := by
  unfold Cons.autoOr; split <;> rfl
@[simp] theorem tail_col (c : Cons α) (column op : Bytes) (v : Val α) :
    (c.col column op v).tail = c.tail := by
  rcases col_cases c column op v with ⟨n, p, h1, h2, _, h3⟩ | ⟨h1, h2 | h2⟩
  · rw [h3]; simp
  · rw [h2]
  · rw [h2]; simp
@[simp] theorem tail_fql (fin : Option Err) (ts : List (Tok α)) (c : Cons α) :
    (c.fqlLoop fin ts).1.tail = c.tail := by
  induction ts generalizing c with
  | nil => simp [Cons.fqlLoop]
  | cons t ts ih =>
    cases t with
    | lparen => simp [Cons.fqlLoop, ih]
    | rparen => simp [Cons.fqlLoop, ih]
    | and => simp [Cons.fqlLoop, ih]
    | or => simp [Cons.fqlLoop, ih]
    | rule key cmp val =>
      simp only [Cons.fqlLoop, cmpStr_eq]
      split
      · split
        · rw [ih]; simp
        · split
          · rfl
          · rw [ih]; simp
      · split
        · rfl
        · exact ih _

/-- The effect of a (non-nesting) call on limit and offset. -/
def Call.limOff (x : Call α) (lo : Int64 × Int64) : Int64 × Int64 :=
  match x with
  | .limit n => if n > 0 then (n, lo.2) else lo
  | .offset n => if n > 0 then (lo.1, n) else lo
  | .page p => if p > 0 ∧ lo.1 ≥ 0 then (lo.1, lo.1 * (p - 1)) else lo
  | _ => lo

def Cons.limOff (c : Cons α) : Int64 × Int64 := (c.filter.limit, c.filter.offset)

theorem limOff_of_tail {c d : Cons α} (h : c.tail = d.tail) : c.limOff = d.limOff := by
  simp only [Cons.tail, Prod.mk.injEq] at h
  simp [Cons.limOff, h]

theorem orderby_of_tail {c d : Cons α} (h : c.tail = d.tail) : c.filter.orderby = d.filter.orderby := by
  simp only [Cons.tail, Prod.mk.injEq] at h
  exact h.1

mutual
theorem run_limOff (x : Call α) (c : Cons α) :
    (x.run c).limOff = x.flat.foldl (fun lo y => y.limOff lo) c.limOff := by
  cases x with
  | andNest n =>
    simp only [Call.run, Call.flat]
    rw [limOff_of_tail (tail_push _ _), runCalls_limOff,
      limOff_of_tail ((tail_push c.autoAnd .lparen).trans (tail_autoAnd c))]
  | orNest n =>
    simp only [Call.run, Call.flat]
    rw [limOff_of_tail (tail_push _ _), runCalls_limOff,
      limOff_of_tail ((tail_push c.autoOr .lparen).trans (tail_autoOr c))]
  | unmarshalSort s =>
    have := sort_frame (s.length + 1) s c
    simp [Call.run, Call.flat, Cons.unmarshalSort, Cons.limOff, Call.limOff, this.2.2.2.1, this.2.2.2.2]
  | unmarshalFQL ts fin => simpa [Call.run, Call.flat, Call.limOff] using limOff_of_tail (tail_fql fin ts c)
  | col column op v => simpa [Call.run, Call.flat, Call.limOff] using limOff_of_tail (tail_col c column op v)
  | colIn column xs =>
    simpa [Call.run, Call.flat, Call.limOff, Cons.colIn, Cons.colAny] using
      limOff_of_tail ((tail_push c.autoAnd (.isIn column xs)).trans (tail_autoAnd c))
  | colAny column k xs =>
    simpa [Call.run, Call.flat, Call.limOff, Cons.colIn, Cons.colAny] using
      limOff_of_tail ((tail_push c.autoAnd (.any column k xs)).trans (tail_autoAnd c))
  | textSearch s =>
    simp only [Call.run, Call.flat, Call.limOff, Cons.textSearch, List.foldl_cons, List.foldl_nil]
    split
    · exact limOff_of_tail ((tail_push c.autoAnd (.text c.tscol s)).trans (tail_autoAnd c))
    · rfl
  | and => simpa [Call.run, Call.flat, Call.limOff] using limOff_of_tail (tail_autoAnd c)
  | or => simpa [Call.run, Call.flat, Call.limOff] using limOff_of_tail (tail_autoOr c)
  | limit n =>
    simp only [Call.run, Call.flat, Call.limOff, Cons.limit, List.foldl_cons, List.foldl_nil]
    split <;> rfl
  | offset n =>
    simp only [Call.run, Call.flat, Call.limOff, Cons.offset, List.foldl_cons, List.foldl_nil]
    split <;> rfl
  | page n =>
    simp only [Call.run, Call.flat, Call.limOff, Cons.page, List.foldl_cons, List.foldl_nil, Cons.limOff]
    split <;> rfl
  | orderBy => rfl
  | orderByV2 => rfl
  | strictSwitch => rfl
theorem runCalls_limOff (xs : List (Call α)) (c : Cons α) :
    (runCalls xs c).limOff = (flatCalls xs).foldl (fun lo y => y.limOff lo) c.limOff := by
  cases xs with
  | nil => rfl
  | cons x xs =>
    simp only [runCalls, flatCalls, List.foldl_append]
    rw [runCalls_limOff xs, run_limOff x]
end

mutual
theorem run_orderby (x : Call α) (c : Cons α) :
    (x.run c).filter.orderby = addItems c.filter.orderby (x.ordering c.colmap c.strict) := by
  cases x with
  | andNest n =>
    simp only [Call.run, Call.ordering]
    rw [orderby_of_tail (tail_push _ _), runCalls_orderby,
      orderby_of_tail ((tail_push c.autoAnd .lparen).trans (tail_autoAnd c))]
    simp
  | orNest n =>
    simp only [Call.run, Call.ordering]
    rw [orderby_of_tail (tail_push _ _), runCalls_orderby,
      orderby_of_tail ((tail_push c.autoOr .lparen).trans (tail_autoOr c))]
    simp
  | unmarshalSort s =>
    simp only [Call.run, Call.ordering, Cons.unmarshalSort]
    exact (sortLoop_eq _ _ _ (by omega)).1
  | unmarshalFQL ts fin => simpa [Call.run, Call.ordering, addItems] using orderby_of_tail (tail_fql fin ts c)
  | col column op v => simpa [Call.run, Call.ordering, addItems] using orderby_of_tail (tail_col c column op v)
  | colIn column xs =>
    simpa [Call.run, Call.ordering, addItems, Cons.colIn, Cons.colAny] using
      orderby_of_tail ((tail_push c.autoAnd (.isIn column xs)).trans (tail_autoAnd c))
  | colAny column k xs =>
    simpa [Call.run, Call.ordering, addItems, Cons.colIn, Cons.colAny] using
      orderby_of_tail ((tail_push c.autoAnd (.any column k xs)).trans (tail_autoAnd c))
  | textSearch s =>
    simp only [Call.run, Call.ordering, Cons.textSearch]
    split
    · exact orderby_of_tail ((tail_push c.autoAnd (.text c.tscol s)).trans (tail_autoAnd c))
    · rfl
  | and => simpa [Call.run, Call.ordering, addItems] using orderby_of_tail (tail_autoAnd c)
  | or => simpa [Call.run, Call.ordering, addItems] using orderby_of_tail (tail_autoOr c)
  | limit n => simp only [Call.run, Call.ordering, Cons.limit]; split <;> rfl
  | offset n => simp only [Call.run, Call.ordering, Cons.offset]; split <;> rfl
  | page n => simp only [Call.run, Call.ordering, Cons.page]; split <;> rfl
  | orderBy c' d nf => simp only [Call.run, Call.ordering, orderBy_eq]
  | orderByV2 c' d nl nf => simp only [Call.run, Call.ordering, orderByV2_eq]
  | strictSwitch => rfl
theorem runCalls_orderby (xs : List (Call α)) (c : Cons α) :
    (runCalls xs c).filter.orderby = addItems c.filter.orderby (ordering c.colmap xs c.strict) := by
  cases xs with
  | nil => rfl
  | cons x xs =>
    have h1 := run_frame x c
    simp only [runCalls, ordering]
    rw [runCalls_orderby xs, run_orderby x, addItems_append, colmap_of_env h1.1, h1.2.1]
end

theorem item_text_ne_nil (i : OrderItem) : i.text ≠ [] := by
  unfold OrderItem.text; cases i.desc <;> simp

theorem addItems_ne (o : Bytes) (ho : o ≠ []) (items : List OrderItem) :
    addItems o items = o ++ (items.map (fun i => b!", " ++ i.text)).flatten := by
  induction items generalizing o with
  | nil => simp [addItems]
  | cons i is ih =>
    have : addItems o (i :: is) = addItems (o ++ b!", " ++ i.text) is := by
      simp [addItems, ho]
    rw [this, ih _ (by simp [ho])]
    simp

theorem addItems_nil (items : List OrderItem) :
    addItems [] items = (b!", ").intercalate (items.map OrderItem.text) := by
  cases items with
  | nil => simp [addItems]
  | cons i is =>
    have : addItems [] (i :: is) = addItems i.text is := by simp [addItems]
    rw [this, addItems_ne _ (item_text_ne_nil i), List.map_cons, intercalate_cons]
    simp [Function.comp_def]

theorem orderBy_part (items : List OrderItem) :
    (if (addItems [] items).length > 0 then b!" ORDER BY " ++ addItems [] items else []) =
      orderByText items := by
  unfold orderByText
  cases items with
  | nil => simp [addItems]
  | cons i is =>
    have hne : addItems [] (i :: is) ≠ [] := by
      have : addItems [] (i :: is) = addItems i.text is := by simp [addItems]
      rw [this, addItems_ne _ (item_text_ne_nil i)]
      simp [item_text_ne_nil]
    rw [if_pos (List.length_pos_iff.2 hne), addItems_nil]
    simp

/-- SQL text of the tail of the filter. -/
def tailText (f : FilterS α) : Bytes :=
  (if f.orderby.length > 0 then b!" ORDER BY " ++ f.orderby else []) ++
  (if f.limit > 0 then b!" LIMIT " ++ formatPos f.limit else []) ++
  (if f.offset > 0 then b!" OFFSET " ++ formatPos f.offset else [])

theorem toSQL_eq (f : FilterS α) (pos : Nat) :
    f.toSQL pos = (f.countSQL pos).map (fun r => (r.1 ++ tailText f, r.2)) := by
  unfold FilterS.toSQL FilterS.countSQL
  cases whereSQL f pos with
  | none => rfl
  | some w =>
    show some _ = some _
    simp only [tailText, Writer.str]
    split <;> split <;> split <;> simp

end Verif.Filter
