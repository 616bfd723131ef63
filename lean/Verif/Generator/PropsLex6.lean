import Verif.Generator.PropsLex5
import Verif.Generator.PropsFiltered2

/- Property C87: the text of a filter (filter/filter.go:478-523). -/
namespace Verif.Generator.Lex
open Verif.Filter (Node Writer Cons FilterS Val SliceKind)
variable {α : Type}

/-! ### The tokens of a condition; `p` is the number of the parameters before it -/

def castToks : SliceKind → List Tok
  | .int64 => [.cast, .word b!"int8", .punct '[', .punct ']']
  | .int => [.cast, .word b!"int4", .punct '[', .punct ']']
  | .int16 => [.cast, .word b!"int2", .punct '[', .punct ']']
  | .string => [.cast, .word b!"text", .punct '[', .punct ']']

def nodeToks (p : Nat) : Node α → List Tok
  | .binary col op _ => lex col ++ lex op ++ [.param (itoa (p + 1))]
  | .unary col pred => lex col ++ lex pred
  | .text col _ => lex col ++ .op b!"@@" :: .word b!"to_tsquery" ::
      parens (commaToks [[.str b!"simple"], [.param (itoa (p + 1))]])
  | .and => kw b!"and"
  | .or => kw b!"or"
  | .lparen => [.punct '(']
  | .rparen => [.punct ')']
  | .isIn col xs => lex col ++ kw b!"in" ++
      parens (commaToks ((List.range' (p + 1) xs.length).map fun i => [.param (itoa i)]))
  | .any col k _ => lex col ++ .op b!"=" :: kw b!"any" ++ parens (.param (itoa (p + 1)) :: castToks k)

/-- The number of its parameters. -/
def nodeParams : Node α → Nat
  | .binary .. | .text .. | .any .. => 1
  | .isIn _ xs => xs.length
  | _ => 0

def nodesToks : Nat → List (Node α) → List Tok
  | _, [] => []
  | p, n :: ns => nodeToks p n ++ nodesToks (p + nodeParams n) ns

def NodePlain : Node α → Prop
  | .binary col op _ => Whole col ∧ Whole op
  | .unary col pred => Whole col ∧ Whole pred
  | .text col _ | .isIn col _ | .any col _ _ => Whole col
  | _ => True

/-- Nodes that may follow any other. -/
def isLink : Node α → Bool
  | .and | .or | .rparen => true
  | _ => false

/-- No condition directly follows another; `b`: there is one just before. -/
def Linked (b : Bool) : List (Node α) → Prop
  | [] => True
  | n :: ns => (b = true → isLink n = true) ∧ Linked n.canAndOr ns

theorem linked_append (n : Node α) : ∀ (b : Bool) (l : List (Node α)), Linked b l →
    ((match l.getLast? with | none => b | some m => m.canAndOr) = true → isLink n = true) → Linked b (l ++ [n])
  | b, [], _, h => ⟨h, trivial⟩
  | b, [m], h, h' => ⟨h.1, h', trivial⟩
  | b, m :: m' :: l, h, h' => ⟨h.1, linked_append n _ (m' :: l) h.2 (by rw [List.getLast?_cons_cons] at h'; exact h')⟩

/-! ### Writing -/

theorem writer_param {w w' : Writer α} {v : Filter.Param α} (h : w.param v = some w') :
    w'.out = w.out ++ ('$' :: itoa (w.p + 1)) ∧ w'.p = w.p + 1 := by
  simp only [Writer.param, ordinalAt, Option.bind_eq_bind, Option.bind_eq_some_iff] at h
  obtain ⟨o, ho, h⟩ := h
  split at ho
  · cases ho; cases h; exact ⟨rfl, rfl⟩
  · cases ho

theorem writeIn_reads {ts : List Tok} : ∀ (xs : List α) (w w' : Writer α),
    Filter.writeIn xs false w = some w' → Reads w.out ts →
    Reads w'.out (ts ++ (List.range' (w.p + 1) xs.length).flatMap fun i => [.punct ',', .param (itoa i)]) ∧
      w'.p = w.p + xs.length
  | [], w, w', h, hr => by cases h; exact ⟨by simpa using hr, rfl⟩
  | x :: xs, w, w', h, hr => by
    simp only [Filter.writeIn, Bool.false_eq_true, if_false, Option.bind_eq_bind, Option.bind_eq_some_iff] at h
    obtain ⟨w1, h1, h2⟩ := h
    obtain ⟨ho, hp⟩ := writer_param h1
    have hr1 : Reads w1.out (ts ++ [.punct ',', .param (itoa (w.p + 1))]) := by
      rw [ho]
      exact ((hr.append_closed (show SepHead b!"," by decide) (by simp)
        (show Closed b!"," [.punct ','] by decide)).append_reads (reads_ordinal (w.p + 1))).of
        (by simp [Writer.str]) (by simp)
    obtain ⟨h3, h4⟩ := writeIn_reads xs w1 w' h2 hr1
    have hp' : w1.p = w.p + 1 := hp
    rw [hp'] at h3 h4
    refine ⟨h3.of rfl ?_, by simp only [List.length_cons]; omega⟩
    rw [List.length_cons, List.range'_succ]
    simp

theorem commaToks_flat (f : Nat → Tok) (n p : Nat) : commaToks ((List.range' p (n + 1)).map fun i => [f i]) =
    f p :: (List.range' (p + 1) n).flatMap fun i => [.punct ',', f i] := by
  induction n generalizing p with
  | zero => rfl
  | succ n ih =>
    have := ih (p + 1)
    rw [List.range'_succ, List.map_cons]
    rw [show List.range' (p + 1) (n + 1) = (p + 1) :: List.range' (p + 2) n from List.range'_succ ..] at this ⊢
    rw [List.map_cons] at this ⊢
    rw [commaToks]
    · rw [this]; simp
    · simp

/-- One condition: from a text that may be followed by anything - or by a link - to one that may be followed by
anything unless a condition was written. -/
theorem node_write {n : Node α} (hn : NodePlain n) {w w' : Writer α} (h : n.write w = some w') {ts : List Tok}
    (hr : Closed w.out ts ∨ Reads w.out ts ∧ isLink n = true) :
    w'.p = w.p + nodeParams n ∧
      (Closed w'.out (ts ++ nodeToks w.p n) ∨ Reads w'.out (ts ++ nodeToks w.p n) ∧ n.canAndOr = true) := by
  have hreads : Reads w.out ts := hr.elim (·.reads) (·.1)
  have hcl : isLink n = false → Closed w.out ts := fun e => hr.elim id fun h => by rw [e] at h; cases h.2
  cases n with
  | binary col op v =>
    obtain ⟨ho, hp⟩ := writer_param h
    refine ⟨hp, .inr ⟨?_, rfl⟩⟩
    rw [ho]
    exact (((((hcl rfl).append_reads hn.1.reads).append_closed (show SepHead b!" " by decide) (by simp)
      (show Closed b!" " [] by decide)).append_reads hn.2.reads).append_closed (show SepHead b!" " by decide) (by simp)
      (show Closed b!" " [] by decide)).append_reads (reads_ordinal (w.p + 1)) |>.of
      (by simp [Writer.str]) (by simp [nodeToks])
  | unary col pred =>
    cases h
    refine ⟨rfl, .inr ⟨?_, rfl⟩⟩
    exact ((((hcl rfl).append_reads hn.1.reads).append_closed (show SepHead b!" " by decide) (by simp)
      (show Closed b!" " [] by decide)).append_reads hn.2.reads).of (by simp [Writer.str]) (by simp [nodeToks])
  | text col s =>
    simp only [Node.write, Option.bind_eq_bind, Option.bind_eq_some_iff] at h
    obtain ⟨w1, h1, h2⟩ := h
    cases h2
    obtain ⟨ho, hp⟩ := writer_param h1
    refine ⟨hp, .inr ⟨?_, rfl⟩⟩
    have hn : Whole col := hn
    have := ((((hcl rfl).append_reads hn.reads).append_closed
      (show SepHead b!" @@ to_tsquery('simple', " by decide) (by simp)
      (show Closed b!" @@ to_tsquery('simple', "
        [.op b!"@@", .word b!"to_tsquery", .punct '(', .str b!"simple", .punct ','] by decide)).append_reads
      (reads_ordinal (w.p + 1))).append_closed (show SepHead b!")" by decide) (by simp)
      (show Closed b!")" [.punct ')'] by decide)
    refine this.reads.of ?_ ?_
    · simp [Writer.str, ho]
    · simp [nodeToks, parens, commaToks]
  | and =>
    cases h
    exact ⟨rfl, .inl (hreads.append_closed (show SepHead b!" AND " by decide) (by simp)
      (show Closed b!" AND " (kw b!"and") by decide))⟩
  | or =>
    cases h
    exact ⟨rfl, .inl (hreads.append_closed (show SepHead b!" OR " by decide) (by simp)
      (show Closed b!" OR " (kw b!"or") by decide))⟩
  | lparen =>
    cases h
    exact ⟨rfl, .inl ((hcl rfl).append (show Closed b!"(" [.punct '('] by decide))⟩
  | rparen =>
    cases h
    exact ⟨rfl, .inl (hreads.append_closed (show SepHead b!")" by decide) (by simp)
      (show Closed b!")" [.punct ')'] by decide))⟩
  | isIn col xs =>
    simp only [Node.write, Option.bind_eq_bind, Option.bind_eq_some_iff] at h
    obtain ⟨w1, h1, h2⟩ := h
    cases h2
    have hn : Whole col := hn
    have h0 := (((hcl rfl).append_reads hn.reads).append_closed (show SepHead b!" IN (" by decide) (by simp)
      (show Closed b!" IN (" [.word b!"in", .punct '('] by decide))
    cases xs with
    | nil =>
      cases h1
      refine ⟨rfl, .inr ⟨?_, rfl⟩⟩
      exact (h0.append (show Closed b!")" [.punct ')'] by decide)).reads.of (by simp [Writer.str])
        (by simp [nodeToks, parens, commaToks, kw])
    | cons x xs =>
      simp only [Filter.writeIn, if_true, Option.bind_eq_bind, Option.bind_eq_some_iff] at h1
      obtain ⟨w2, h2, h3⟩ := h1
      obtain ⟨ho, hp⟩ := writer_param h2
      have hr2 := (h0.append_reads (reads_ordinal (w.p + 1))).of (y := w2.out) (by rw [ho]; simp [Writer.str]) rfl
      obtain ⟨h4, h5⟩ := writeIn_reads xs w2 w1 h3 hr2
      have hp' : w2.p = w.p + 1 := hp
      rw [hp'] at h4 h5
      refine ⟨?_, .inr ⟨?_, rfl⟩⟩
      · show w1.p = _
        rw [h5, nodeParams, List.length_cons]; omega
      · refine (h4.append_closed (show SepHead b!")" by decide) (by simp)
          (show Closed b!")" [.punct ')'] by decide)).reads.of (by simp [Writer.str]) ?_
        simp only [nodeToks, parens, List.length_cons]
        rw [commaToks_flat (fun i => .param (itoa i))]
        simp [kw]
  | any col k xs =>
    simp only [Node.write, Option.bind_eq_bind, Option.bind_eq_some_iff] at h
    obtain ⟨w1, h1, h2⟩ := h
    cases h2
    obtain ⟨ho, hp⟩ := writer_param h1
    have hn : Whole col := hn
    refine ⟨hp, .inr ⟨?_, rfl⟩⟩
    have h0 := (((hcl rfl).append_reads hn.reads).append_closed (show SepHead b!" = ANY(" by decide) (by simp)
      (show Closed b!" = ANY(" [.op b!"=", .word b!"any", .punct '('] by decide)).append_reads
      (reads_ordinal (w.p + 1))
    have hk : Closed (Filter.castOf k ++ b!")") (castToks k ++ [.punct ')']) := by cases k <;> decide
    have hs : SepHead (Filter.castOf k ++ b!")") := by cases k <;> decide
    refine (h0.append_closed hs (by simp) hk).reads.of ?_ ?_
    · simp only [Writer.str, ho]; simp
    · simp [nodeToks, parens, kw]

theorem writeNodes_reads : ∀ (l : List (Node α)) {w w' : Writer α} {ts : List Tok} {b : Bool},
    (∀ n ∈ l, NodePlain n) → Linked b l → Filter.writeNodes l w = some w' →
    (Closed w.out ts ∨ Reads w.out ts ∧ b = true) → Reads w'.out (ts ++ nodesToks w.p l)
  | [], w, w', ts, b, _, _, h, hr => by
    cases h
    simpa [nodesToks] using hr.elim (·.reads) (·.1)
  | n :: ns, w, w', ts, b, hp, hl, h, hr => by
    simp only [Filter.writeNodes, Option.bind_eq_bind, Option.bind_eq_some_iff] at h
    obtain ⟨w1, h1, h2⟩ := h
    have := node_write (hp n (List.mem_cons_self ..)) h1 (hr.imp id fun h => ⟨h.1, hl.1 h.2⟩)
    have h3 := writeNodes_reads ns (fun m hm => hp m (List.mem_cons_of_mem _ hm)) hl.2 h2 this.2
    rw [this.1] at h3
    exact h3.of rfl (by simp [nodesToks])

/-! ### Building -/

/-- The constructor holds texts that make sense, and conditions with links between them. -/
structure Good (c : Cons α) : Prop where
  linked : Linked false c.filter.where_
  nodes : ∀ n ∈ c.filter.where_, NodePlain n
  order : Whole c.filter.orderby
  ts : Whole c.tscol
  cols : ∀ e ∈ c.colmap, Whole e.2.name

theorem Good.push {c : Cons α} (h : Good c) {n : Node α} (hn : NodePlain n)
    (hl : c.canAndOr = true → isLink n = true) : Good (c.push n) where
  linked := linked_append n _ _ h.linked (by
    intro e
    refine hl ?_
    unfold Cons.canAndOr
    cases hg : c.filter.where_.getLast? with
    | none => rw [hg] at e; cases e
    | some m => rw [hg] at e; exact e)
  nodes m hm := by
    rcases List.mem_append.1 hm with hm | hm
    · exact h.nodes m hm
    · rw [List.mem_singleton.1 hm]; exact hn
  order := h.order
  ts := h.ts
  cols := h.cols

theorem canAndOr_push (c : Cons α) (n : Node α) : (c.push n).canAndOr = n.canAndOr := by
  simp [Cons.canAndOr, Cons.push]

theorem Good.autoAnd {c : Cons α} (h : Good c) : Good c.autoAnd ∧ c.autoAnd.canAndOr = false := by
  unfold Cons.autoAnd
  split
  · exact ⟨h.push trivial fun _ => rfl, by rw [canAndOr_push]; rfl⟩
  · next e => exact ⟨h, by simpa using e⟩

theorem Good.autoOr {c : Cons α} (h : Good c) : Good c.autoOr ∧ c.autoOr.canAndOr = false := by
  unfold Cons.autoOr
  split
  · exact ⟨h.push trivial fun _ => rfl, by rw [canAndOr_push]; rfl⟩
  · next e => exact ⟨h, by simpa using e⟩

theorem Good.next {c : Cons α} (h : Good c) {n : Node α} (hn : NodePlain n) : Good (c.autoAnd.push n) :=
  h.autoAnd.1.push hn fun e => by rw [h.autoAnd.2] at e; cases e

theorem Good.col {c : Cons α} (h : Good c) {column op : Bytes} (hc : Whole column) (ho : Whole op) (v : Filter.Val α) :
    Good (c.col column op v) := by
  unfold Cons.col
  have hu : ∀ p, Whole p → Good (c.autoAnd.push (.unary column p)) := fun p hp => h.next ⟨hc, hp⟩
  split
  · split
    · exact h.next (n := .any ..) hc
    · exact h
  · split
    · split
      · exact h.next (n := .isIn ..) hc
      · exact h
    · dsimp only
      split
      · split
        · exact hu _ (by decide)
        · split
          · exact hu _ (by decide)
          · exact h.autoAnd.1
      · split
        · exact hu _ (by decide)
        · split
          · exact hu _ (by decide)
          · exact h.autoAnd.1
      · split
        · exact hu _ (by decide)
        · split
          · exact hu _ (by decide)
          · exact h.autoAnd.1
      · exact h.next ⟨hc, ho⟩

theorem orderPrefix_whole {o column : Bytes} (ho : Whole o) (hc : Whole column) (desc : Bool) :
    Whole (Cons.orderPrefix o column desc) := by
  unfold Cons.orderPrefix
  have key : ∀ x, Whole x → Whole (if desc then x ++ b!" DESC" else x ++ b!" ASC") := by
    intro x hx
    split
    · exact (hx.reads.append (show SepHead b!" DESC" by decide) (show Whole b!" DESC" by decide).reads).whole
    · exact (hx.reads.append (show SepHead b!" ASC" by decide) (show Whole b!" ASC" by decide).reads).whole
  refine key _ ?_
  split
  · exact ((ho.reads.append_closed (show SepHead b!", " by decide) (by simp)
      (show Closed b!", " [.punct ','] by decide)).append_reads hc.reads).whole
  · next e =>
    have : o = [] := List.length_eq_zero_iff.1 (by omega)
    subst this
    exact hc

theorem whole_nulls {x : Bytes} (h : Whole x) (b : Bool) :
    Whole (if b then x ++ b!" NULLS FIRST" else x ++ b!" NULLS LAST") := by
  split
  · exact (h.reads.append (show SepHead b!" NULLS FIRST" by decide) (show Whole b!" NULLS FIRST" by decide).reads).whole
  · exact (h.reads.append (show SepHead b!" NULLS LAST" by decide) (show Whole b!" NULLS LAST" by decide).reads).whole

theorem Good.orderBy {c : Cons α} (h : Good c) {column : Bytes} (hc : Whole column) (d n : Bool) :
    Good (c.orderBy column d n) :=
  { h with order := whole_nulls (orderPrefix_whole h.order hc d) n }

theorem Good.orderByV2 {c : Cons α} (h : Good c) {column : Bytes} (hc : Whole column) (d l n : Bool) :
    Good (c.orderByV2 column d l n) := by
  refine { h with order := ?_ }
  show Whole (if l then _ else _)
  cases l
  · exact orderPrefix_whole h.order hc d
  · exact whole_nulls (orderPrefix_whole h.order hc d) n

theorem Good.lookup {c : Cons α} (h : Good c) {key : Bytes} {cl : Filter.Column α} (hl : c.lookup key = some cl) :
    Whole cl.name := by
  simp only [Cons.lookup, Option.map_eq_some_iff] at hl
  obtain ⟨e, he, rfl⟩ := hl
  exact h.cols e (List.mem_of_find?_eq_some he)

theorem Good.sortLoop : ∀ (n : Nat) {c : Cons α}, Good c → ∀ s, Good (c.sortLoop n s).1
  | 0, _, h, _ => h
  | _ + 1, _, h, [] => h
  | n + 1, c, h, x :: xs => by
    unfold Cons.sortLoop
    dsimp only
    split
    · cases hl : c.lookup (Cons.sortSegKey (decide (x = '-')) (Cons.scanSeg (x :: xs)).1) with
      | some cl => exact Good.sortLoop n (h.orderByV2 (h.lookup hl) ..) _
      | none =>
        dsimp only
        split
        · exact h
        · exact Good.sortLoop n h _
    · exact Good.sortLoop n h _

theorem whole_cmp (c : Filter.Cmp) : Whole (Filter.cmpStr c) := by cases c <;> decide

theorem Good.fqlLoop (fin : Option Filter.Err) : ∀ (ts : List (Filter.Tok α)) {c : Cons α}, Good c →
    Good (c.fqlLoop fin ts).1
  | [], _, h => h
  | .lparen :: ts, c, h => Good.fqlLoop fin ts (h.next (n := .lparen) trivial)
  | .rparen :: ts, c, h => Good.fqlLoop fin ts (h.push (n := .rparen) trivial fun _ => rfl)
  | .and :: ts, c, h => Good.fqlLoop fin ts (h.push (n := .and) trivial fun _ => rfl)
  | .or :: ts, c, h => Good.fqlLoop fin ts (h.push (n := .or) trivial fun _ => rfl)
  | .rule key cmp val :: ts, c, h => by
    unfold Cons.fqlLoop
    cases hl : c.lookup key with
    | some cl =>
      dsimp only
      cases cl.convert with
      | none => exact Good.fqlLoop fin ts (h.col (h.lookup hl) (whole_cmp cmp) _)
      | some f =>
        dsimp only
        cases f (val.getD .nil) with
        | error m => exact h
        | ok v => exact Good.fqlLoop fin ts (h.col (h.lookup hl) (whole_cmp cmp) _)
    | none =>
      dsimp only
      split
      · exact h
      · exact Good.fqlLoop fin ts h

mutual
/-- The columns and operators that a program passes make sense by themselves. -/
def CallPlain : Filter.Call α → Prop
  | .col column op _ => Whole column ∧ Whole op
  | .colIn column _ | .colAny column _ _ | .orderBy column _ _ | .orderByV2 column _ _ _ => Whole column
  | .andNest nest | .orNest nest => CallsPlain nest
  | _ => True
def CallsPlain : List (Filter.Call α) → Prop
  | [] => True
  | x :: xs => CallPlain x ∧ CallsPlain xs
end

mutual
theorem Good.run : ∀ (x : Filter.Call α) {c : Cons α}, CallPlain x → Good c → Good (x.run c)
  | .col column op v, c, hx, h => by
    rw [CallPlain] at hx; rw [Filter.Call.run]; exact h.col hx.1 hx.2 v
  | .colIn column xs, c, hx, h => by
    rw [CallPlain] at hx; rw [Filter.Call.run]; exact h.next (n := .isIn ..) hx
  | .colAny column k xs, c, hx, h => by
    rw [CallPlain] at hx; rw [Filter.Call.run]; exact h.next (n := .any ..) hx
  | .textSearch s, c, _, h => by
    rw [Filter.Call.run, Cons.textSearch]
    split
    · exact h.next (n := .text ..) h.ts
    · exact h
  | .and, c, _, h => by rw [Filter.Call.run]; exact h.autoAnd.1
  | .or, c, _, h => by rw [Filter.Call.run]; exact h.autoOr.1
  | .andNest nest, c, hx, h => by
    rw [CallPlain] at hx
    rw [Filter.Call.run]
    exact (Good.runs nest hx (h.next (n := .lparen) trivial)).push (n := .rparen) trivial fun _ => rfl
  | .orNest nest, c, hx, h => by
    rw [CallPlain] at hx
    rw [Filter.Call.run]
    exact (Good.runs nest hx (h.autoOr.1.push (n := .lparen) trivial
      fun e => by rw [h.autoOr.2] at e; cases e)).push (n := .rparen) trivial fun _ => rfl
  | .orderBy column d n, c, hx, h => by rw [CallPlain] at hx; rw [Filter.Call.run]; exact h.orderBy hx d n
  | .orderByV2 column d l n, c, hx, h => by rw [CallPlain] at hx; rw [Filter.Call.run]; exact h.orderByV2 hx d l n
  | .limit n, c, _, h => by
    rw [Filter.Call.run, Cons.limit]
    split
    · exact { h with }
    · exact h
  | .offset n, c, _, h => by
    rw [Filter.Call.run, Cons.offset]
    split
    · exact { h with }
    · exact h
  | .page n, c, _, h => by
    rw [Filter.Call.run, Cons.page]
    split
    · exact { h with }
    · exact h
  | .strictSwitch, c, _, h => by rw [Filter.Call.run]; exact { h with }
  | .unmarshalSort s, c, _, h => by rw [Filter.Call.run]; exact Good.sortLoop _ h _
  | .unmarshalFQL ts fin, c, _, h => by rw [Filter.Call.run]; exact Good.fqlLoop fin ts h
theorem Good.runs : ∀ (xs : List (Filter.Call α)) {c : Cons α}, CallsPlain xs → Good c → Good (Filter.runCalls xs c)
  | [], c, _, h => by rw [Filter.runCalls]; exact h
  | x :: xs, c, hx, h => by
    rw [CallsPlain] at hx; rw [Filter.runCalls]; exact Good.runs xs hx.2 (Good.run x hx.1 h)
end

/-! ### The text -/

/-- WHERE with its conditions, ORDER BY, LIMIT and OFFSET. -/
def filterToks (f : FilterS α) (pos : Nat) : List Tok :=
  (if f.where_.length > 0 then kw b!"where" ++ nodesToks pos f.where_ else []) ++
    (if f.orderby.length > 0 then kw b!"order" ++ kw b!"by" ++ lex f.orderby else []) ++
    (if f.limit > 0 then kw b!"limit" ++ [.num (itoa f.limit.toInt.toNat)] else []) ++
    (if f.offset > 0 then kw b!"offset" ++ [.num (itoa f.offset.toInt.toNat)] else [])

theorem param_prefix {w w' : Writer α} {v : Filter.Param α} (h : w.param v = some w') : w.out <+: w'.out := by
  rw [(writer_param h).1]; exact List.prefix_append ..

theorem writeIn_prefix : ∀ (xs : List α) (b : Bool) {w w' : Writer α}, Filter.writeIn xs b w = some w' → w.out <+: w'.out
  | [], _, w, w', h => by cases h; exact List.prefix_rfl
  | x :: xs, b, w, w', h => by
    simp only [Filter.writeIn, Option.bind_eq_bind, Option.bind_eq_some_iff] at h
    obtain ⟨w1, h1, h2⟩ := h
    refine List.IsPrefix.trans ?_ ((param_prefix h1).trans (writeIn_prefix xs false h2))
    cases b
    · exact List.prefix_append ..
    · exact List.prefix_rfl

theorem node_prefix {n : Node α} {w w' : Writer α} (h : n.write w = some w') : w.out <+: w'.out := by
  have hs : ∀ (v : Writer α) s, v.out <+: (v.str s).out := fun v s => List.prefix_append ..
  cases n with
  | binary col op v => exact (((((hs _ _).trans (hs _ _)).trans (hs _ _)).trans (hs _ _)).trans (param_prefix h))
  | unary col pred => cases h; exact ((hs _ _).trans (hs _ _)).trans (hs _ _)
  | text col s =>
    simp only [Node.write, Option.bind_eq_bind, Option.bind_eq_some_iff] at h
    obtain ⟨w1, h1, h2⟩ := h
    cases h2
    exact (((hs _ _).trans (hs _ _)).trans (param_prefix h1)).trans (hs _ _)
  | and => cases h; exact hs _ _
  | or => cases h; exact hs _ _
  | lparen => cases h; exact hs _ _
  | rparen => cases h; exact hs _ _
  | isIn col xs =>
    simp only [Node.write, Option.bind_eq_bind, Option.bind_eq_some_iff] at h
    obtain ⟨w1, h1, h2⟩ := h
    cases h2
    exact (((hs _ _).trans (hs _ _)).trans (writeIn_prefix _ _ h1)).trans (hs _ _)
  | any col k xs =>
    simp only [Node.write, Option.bind_eq_bind, Option.bind_eq_some_iff] at h
    obtain ⟨w1, h1, h2⟩ := h
    cases h2
    exact ((((hs _ _).trans (hs _ _)).trans (param_prefix h1)).trans (hs _ _)).trans (hs _ _)

theorem whereSQL_reads {c : Cons α} (h : Good c) {pos : Nat} {w : Writer α} (hw : Filter.whereSQL c.filter pos = some w) :
    Trails w.out (if c.filter.where_.length > 0 then kw b!"where" ++ nodesToks pos c.filter.where_ else []) := by
  unfold Filter.whereSQL at hw
  dsimp only at hw
  split
  · next hl =>
    rw [if_pos hl] at hw
    have h1 := writeNodes_reads c.filter.where_ (b := false) h.nodes h.linked hw
      (ts := kw b!"where") (.inl (show Closed b!" WHERE " _ by decide))
    refine ⟨?_, h1⟩
    have h2 : ∀ (l : List (Node α)) (w w' : Writer α), Filter.writeNodes l w = some w' → w.out <+: w'.out := by
      intro l
      induction l with
      | nil => intro w w' e; cases e; exact List.prefix_rfl
      | cons n l ih =>
        intro w w' e
        simp only [Filter.writeNodes, Option.bind_eq_bind, Option.bind_eq_some_iff] at e
        obtain ⟨w1, e1, e2⟩ := e
        exact (node_prefix e1).trans (ih _ _ e2)
    obtain ⟨y, hy⟩ := h2 _ _ _ hw
    rw [← hy]
    exact (show SepHead b!" WHERE " by decide).append (by simp)
  · next hl =>
    rw [if_neg hl] at hw
    cases hw
    exact Trails.nil

theorem Trails.then {x y : Bytes} {a b : List Tok} (h : Trails x a) {p : Prop} [Decidable p] (hy : p → Trails y b) :
    Trails (if p then x ++ y else x) (a ++ if p then b else []) := by
  split
  · next hp => exact h.append (hy hp)
  · simpa using h

/-- **C87** The text of a filter consists of the tokens that are meant, whatever calls it was built with, if the
columns and operators make sense by themselves; and it may follow any text. -/
theorem C87_filter_text {colmap : List (Bytes × Filter.Column α)} {tscol : Bytes} {calls : List (Filter.Call α)}
    (hm : ∀ e ∈ colmap, Whole e.2.name) (ht : Whole tscol) (hc : CallsPlain calls) {pos : Nat} {x : Bytes}
    {ps : List (Filter.Param α)} (h : Filter.filterSQL colmap tscol calls pos = some (x, ps)) :
    let toks := filterToks (Filter.runCalls calls (Cons.initV2 {} colmap tscol)).filter pos
    lex x = toks ∧ .bad ∉ toks ∧ Whole x ∧ SepHead x := by
  intro toks
  have hg : Good (Filter.runCalls calls (Cons.initV2 {} colmap tscol)) :=
    Good.runs calls hc ⟨trivial, by simp [Cons.initV2], by show Whole []; decide, ht, hm⟩
  unfold Filter.filterSQL FilterS.toSQL at h
  simp only [Option.bind_eq_bind, Option.bind_eq_some_iff] at h
  obtain ⟨w, hw, h⟩ := h
  have h1 := whereSQL_reads hg hw
  generalize hf : (Filter.runCalls calls (Cons.initV2 {} colmap tscol)).filter = f at *
  have lit : ∀ (n : Int64) {l : Bytes} {k : List Tok}, SepHead l → l ≠ [] → Closed l k →
      Trails (l ++ Filter.formatPos n) (k ++ [.num (itoa n.toInt.toNat)]) :=
    fun n l k a b c => Trails.lit a b c (reads_itoa _)
  have ho : Whole f.orderby := by rw [← hf]; exact hg.order
  have h2 := ((h1.then (p := f.orderby.length > 0) (y := b!" ORDER BY " ++ f.orderby)
    (fun _ => Trails.lit (by decide) (by simp) (show Closed b!" ORDER BY " (kw b!"order" ++ kw b!"by") by decide)
      ho.reads)).then (p := f.limit > 0)
    (fun _ => lit f.limit (l := b!" LIMIT ") (k := kw b!"limit") (by decide) (by simp) (by decide))).then
    (p := f.offset > 0)
    (fun _ => lit f.offset (l := b!" OFFSET ") (k := kw b!"offset") (by decide) (by simp) (by decide))
  have hx : x = (if f.offset > 0 then (if f.limit > 0 then (if f.orderby.length > 0 then
      w.out ++ (b!" ORDER BY " ++ f.orderby) else w.out) ++ (b!" LIMIT " ++ Filter.formatPos f.limit) else
      (if f.orderby.length > 0 then w.out ++ (b!" ORDER BY " ++ f.orderby) else w.out)) ++
      (b!" OFFSET " ++ Filter.formatPos f.offset) else (if f.limit > 0 then (if f.orderby.length > 0 then
      w.out ++ (b!" ORDER BY " ++ f.orderby) else w.out) ++ (b!" LIMIT " ++ Filter.formatPos f.limit) else
      (if f.orderby.length > 0 then w.out ++ (b!" ORDER BY " ++ f.orderby) else w.out))) := by
    simp only [pure, Option.some.injEq, Prod.mk.injEq] at h
    rw [← h.1]
    by_cases a : f.orderby.length > 0 <;> by_cases b : f.limit > 0 <;> by_cases c : f.offset > 0 <;>
      simp [a, b, c, Writer.str]
  have h3 : Trails x toks := h2.of hx (by simp only [toks, hf, filterToks])
  exact ⟨h3.2.lex, clean_iff.1 h3.2.1, h3.2.whole, h3.1⟩

/-- **C87** So the statement with the text of a filter of the filter package is as meant. -/
theorem C87_filtered {env : Analysis.Env} {cache : Analysis.Cache} {n : Bytes} {fs : List Analysis.Field}
    {s : Analysis.St} {cat : Postgres.Catalog} {t : Postgres.TargetInfo} {c : Code} (w : World)
    (hc : Analysis.CacheNamed cache) (ha : Analysis.analyzeQuery env cache n fs = .ok s)
    (hk : Postgres.checkQuery cat s.q = .ok t) (hg : generate s.q t = some c) (hcat : CatPlain cat)
    (ht : ∀ x ∈ queryTexts s.q, Whole x)
    {colmap : List (Bytes × Filter.Column α)} {tscol : Bytes} {calls : List (Filter.Call α)}
    (hm : ∀ e ∈ colmap, Whole e.2.name) (hts : Whole tscol) (hcalls : CallsPlain calls)
    {ps : List (Filter.Param α)}
    (hw : Filter.filterSQL colmap tscol calls c.args.length = some ((w.filter c.args.length).1, ps)) :
    let f := fun a => (Generator.slotText w c a).getD []
    let all := stmtToks f c.sql.stmt ++
      filterToks (Filter.runCalls calls (Cons.initV2 {} colmap tscol)).filter c.args.length ++
      (if c.sql.closeFilter then [.punct ')'] else []) ++ tailToks f c.sql.tail
    lex (Generator.filterText w c (Print.stmtText f c.sql.stmt) (Print.tailText f c.sql.tail)) = all ∧ .bad ∉ all := by
  have h := C87_filter_text hm hts hcalls hw
  have := C87_filter w hc ha hk hg hcat ht h.2.2.1 h.2.2.2
  rw [h.1] at this
  exact this

/-- A filter with all kinds of conditions. -/
theorem C87_filter_example : ∃ x ps,
    Filter.filterSQL (α := Nat) [(b!"age", { name := b!"u.\"age\"" })] b!"u.\"ts\""
      [.col b!"u.\"a\"" b!"NOT LIKE" (.other 1), .orNest [.colIn b!"u.\"b\"" [2, 3], .textSearch b!"x y"],
       .colAny b!"u.\"c\"" .string [4], .unmarshalFQL [.rule b!"age" .ge (some (.other 5))] none,
       .unmarshalSort b!"-age", .limit 9] 2 = some (x, ps) ∧
    lex x = [.word b!"where", .word b!"u", .punct '.', .name b!"a", .word b!"not", .word b!"like", .param b!"3",
      .word b!"or", .punct '(', .word b!"u", .punct '.', .name b!"b", .word b!"in", .punct '(', .param b!"4",
      .punct ',', .param b!"5", .punct ')', .word b!"and", .word b!"u", .punct '.', .name b!"ts", .op b!"@@",
      .word b!"to_tsquery", .punct '(', .str b!"simple", .punct ',', .param b!"6", .punct ')', .punct ')',
      .word b!"and", .word b!"u", .punct '.', .name b!"c", .op b!"=", .word b!"any", .punct '(', .param b!"7", .cast,
      .word b!"text", .punct '[', .punct ']', .punct ')', .word b!"and", .word b!"u", .punct '.', .name b!"age",
      .op b!">=", .param b!"8", .word b!"order", .word b!"by", .word b!"u", .punct '.', .name b!"age", .word b!"desc",
      .word b!"limit", .num b!"9"] := by
  refine ⟨_, _, rfl, by decide +kernel⟩

/-- An operator that does not make sense by itself: the rest of the statement is in a comment. -/
theorem C87_filter_op : ∃ x ps,
    Filter.filterSQL (α := Nat) [] [] [.col b!"a" b!"= 1 --" (.other 1)] 0 = some (x, ps) ∧
      .bad ∈ lex x ∧ ¬ Whole b!"= 1 --" := ⟨_, _, rfl, by decide +kernel, by decide +kernel⟩

end Verif.Generator.Lex
