import Verif.Generator.PropsSlices

/- C41: inserting and updating a slice of records. -/
namespace Verif.Generator
open Verif.Analysis Verif.Postgres

/-! ### What should be sent -/

/-- A column of a row: DEFAULT, or the value of an expression in the record, with the text around its
placeholder. -/
inductive Cell where
  | default
  | value (pre post : Bytes) (arg : GoExpr)
deriving Repr, DecidableEq

def Cell.arg : Cell → Option GoExpr
  | .default => none
  | .value _ _ a => some a

def Cell.isValue : Cell → Bool
  | .default => false
  | .value .. => true

def Cell.text (n : Nat) : Cell → Bytes
  | .default => b!"DEFAULT"
  | .value pre post _ => pre ++ ordinal n ++ post

/-- The number of values before the j-th column. -/
def rank (cs : List Cell) (j : Nat) : Nat := (cs.take j).countP Cell.isValue

/-- The literal that stands for NULL in a column. -/
def nullLit (c : Column) : Option Bytes := if c.type.oid = Oid.uuid then some b!"''" else c.type.zeroValue

def writeCell (q : Query) (w : FieldWrite) : Cell :=
  if canUseDefault q w.field then .default
  else
    match (if w.needsNullif then nullLit w.column else none) with
    | some l => .value b!"NULLIF(" (b!", " ++ l ++ b!")::" ++ w.column.type.nameFmt) (writeArg q w)
    | none =>
      if q.kind = .update ∧ w.needsNullif = false then
        .value [] (b!"::" ++ w.column.type.nameFmt) (writeArg q w)
      else .value [] [] (writeArg q w)

/-- The primary keys that are not written as well. -/
def onlyKeys (t : TargetInfo) : List FieldWrite :=
  t.pkeys.filter fun p => decide (p.idx ∉ t.writes.map (·.idx))

/-- The columns of a row: the written fields and, in an update, the other primary keys. -/
def batchCells (q : Query) (t : TargetInfo) : List Cell :=
  t.writes.map (writeCell q) ++
    if q.kind = .update then
      (onlyKeys t).map fun p => .value [] [] (fieldSel (.ident b!"v") p.field)
    else []

/-- The row for the i-th record (from 0). -/
def rowText (cs : List Cell) (i : Nat) : Bytes :=
  b!"(" ++ List.intercalate b!", "
    (cs.mapIdx fun j c => c.text (i * cs.countP Cell.isValue + rank cs j + 1)) ++ b!")"

/-! ### Rows -/

theorem rank_zero (cs : List Cell) : rank cs 0 = 0 := rfl

theorem rank_cons (c : Cell) (cs : List Cell) (j : Nat) :
    rank (c :: cs) (j + 1) = (if c.isValue then 1 else 0) + rank cs j := by
  unfold rank
  rw [List.take_succ_cons, List.countP_cons]
  omega

/-- The value expression of a column is written as the cell says. -/
def Matches (v : VExpr Slot) (c : Cell) : Prop :=
  match c with
  | .default => isDefault v = true
  | .value pre post _ => isDefault v = false ∧ cellFrame v = (pre, post)

inductive AllMatch : List (VExpr Slot) → List Cell → Prop where
  | nil : AllMatch [] []
  | cons {v c vs cs} : Matches v c → AllMatch vs cs → AllMatch (v :: vs) (c :: cs)

theorem AllMatch.append {vs vs' : List (VExpr Slot)} {cs cs' : List Cell} (h : AllMatch vs cs)
    (h' : AllMatch vs' cs') : AllMatch (vs ++ vs') (cs ++ cs') := by
  induction h with
  | nil => exact h'
  | cons h _ ih => exact .cons h ih

/-- The texts of the cells when the last placeholder before them is the p-th. -/
def cellsFrom (p : Nat) (cs : List Cell) : List Bytes := cs.mapIdx fun j c => c.text (p + rank cs j + 1)

theorem cellsFrom_cons (p : Nat) (c : Cell) (cs : List Cell) :
    cellsFrom p (c :: cs) = c.text (p + 1) :: cellsFrom (p + if c.isValue then 1 else 0) cs := by
  unfold cellsFrom
  rw [List.mapIdx_cons]
  congr 1
  apply List.ext_getElem?
  intro j
  rw [List.getElem?_mapIdx, List.getElem?_mapIdx]
  congr 1
  funext x
  rw [rank_cons]
  congr 1
  omega

/-- What follows the first cell. -/
def moreCells (p : Nat) (cs : List Cell) : Bytes := (cellsFrom p cs).flatMap fun x => b!", " ++ x

theorem rowCells_more {vs : List (VExpr Slot)} {cs : List Cell} (h : AllMatch vs cs) :
    ∀ (pos i dc : Nat), 0 < i → dc ≤ i → pos + (i - dc) + cs.countP Cell.isValue ≤ 65535 →
      rowCells pos i dc vs = some (moreCells (pos + (i - dc)) cs ++ b!"),") := by
  induction h with
  | nil => intro pos i dc _ _ _; rfl
  | @cons v c vs cs hm _ ih =>
    intro pos i dc hi hd hmax
    rw [rowCells]
    have hsep : cellSep i = b!", " := by unfold cellSep; rw [if_neg (by omega)]
    rw [List.countP_cons] at hmax
    cases c with
    | default =>
      have hdef : isDefault v = true := hm
      rw [if_pos hdef, ih pos (i + 1) (dc + 1) (by omega) (by omega)
        (by simp only [Cell.isValue] at hmax
            rw [show i + 1 - (dc + 1) = i - dc by omega]; simpa using hmax)]
      simp only [Option.map_some, Option.some.injEq, moreCells, cellsFrom_cons, Cell.text, Cell.isValue, Bool.false_eq_true, if_false, List.flatMap_cons, hsep]
      rw [show i + 1 - (dc + 1) = i - dc by omega]
      simp only [Nat.add_zero, List.append_assoc]
    | value pre post a =>
      obtain ⟨hdef, hfr⟩ := hm
      simp only [Cell.isValue, if_true] at hmax
      rw [if_neg (by simp [hdef])]
      rw [show ((pos : Int) + ((i : Int) - dc)) = ((pos + (i - dc) : Nat) : Int) by omega,
        ordinalAtInt_ok _ (by omega), Option.bind_some, ih pos (i + 1) dc (by omega) (by omega) (by omega)]
      simp only [Option.map_some, Option.some.injEq, moreCells, cellsFrom_cons, Cell.text, Cell.isValue, if_true, List.flatMap_cons, hsep, hfr]
      rw [show pos + (i + 1 - dc) = pos + (i - dc) + 1 by omega]
      simp only [List.append_assoc]

theorem intercalate_cons (s x : Bytes) (xs : List Bytes) :
    List.intercalate s (x :: xs) = x ++ xs.flatMap fun y => s ++ y := by
  induction xs generalizing x with
  | nil => simp [List.intercalate, List.intersperse]
  | cons y ys ih =>
    have := ih y
    simp only [List.intercalate, List.intersperse, List.flatten_cons, List.flatMap_cons] at this ⊢
    rw [this]
    simp

theorem rowCells_row {vs : List (VExpr Slot)} {cs : List Cell} (h : AllMatch vs cs) (hne : cs ≠ [])
    (i k : Nat) (hk : k = cs.countP Cell.isValue) (hmax : i * k + k ≤ 65535) :
    rowCells (i * k) 0 0 vs = some (rowText cs i ++ b!",") := by
  subst hk
  cases h with
  | nil => exact absurd rfl hne
  | @cons v c vs cs hm hms =>
    unfold rowText
    generalize hk : List.countP Cell.isValue (c :: cs) = k at *
    have hk' := hk
    rw [List.countP_cons] at hk'
    change rowCells (i * k) 0 0 (v :: vs) =
      some (b!"(" ++ List.intercalate b!", " (cellsFrom (i * k) (c :: cs)) ++ b!")" ++ b!",")
    rw [cellsFrom_cons, intercalate_cons, rowCells]
    have hsep : cellSep 0 = b!"(" := rfl
    rw [hsep]
    cases c with
    | default =>
      have hdef : isDefault v = true := hm
      simp only [Cell.isValue, Bool.false_eq_true, if_false] at hk'
      rw [if_pos hdef, rowCells_more hms (i * k) (0 + 1) (0 + 1) (by omega) (by omega) (by omega)]
      simp only [Option.map_some, Option.some.injEq, moreCells, Cell.text, Cell.isValue, Bool.false_eq_true, if_false, Nat.add_zero, Nat.sub_self]
      simp
    | value pre post a =>
      obtain ⟨hdef, hfr⟩ := hm
      simp only [Cell.isValue, if_true] at hk'
      rw [if_neg (by simp [hdef])]
      rw [show (((i * k : Nat) : Int) + (((0 : Nat) : Int) - ((0 : Nat) : Int))) = ((i * k : Nat) : Int) by omega,
        ordinalAtInt_ok _ (by omega), Option.bind_some,
        rowCells_more hms (i * k) (0 + 1) 0 (by omega) (by omega) (by omega)]
      simp only [Option.map_some, Option.some.injEq, moreCells, Cell.text, Cell.isValue, if_true, hfr]
      rw [show i * k + (0 + 1 - 0) = i * k + 1 by omega]
      simp

theorem recordRows_eq {c : Code} {cs : List Cell} (h : AllMatch c.rowVals cs) (hne : cs ≠ [])
    (hk : c.args.length = cs.countP Cell.isValue) :
    ∀ (n i : Nat), (i + n) * c.args.length ≤ 65535 →
      recordRows c i n = some (((List.range n).map fun j => rowText cs (i + j) ++ b!",").flatten) := by
  intro n
  induction n with
  | zero => intro i _; rfl
  | succ n ih =>
    intro i hmax
    have h1 : i * c.args.length + c.args.length ≤ 65535 := by
      rw [← Nat.succ_mul]
      exact Nat.le_trans (Nat.mul_le_mul_right _ (by omega)) hmax
    rw [recordRows, rowCells_row h hne i _ hk h1, Option.bind_some, ih (i + 1) (by
      rw [show i + 1 + n = i + (n + 1) by omega]; exact hmax)]
    simp only [Option.map_some, Option.some.injEq, List.range_succ_eq_map, List.map_cons, List.map_map,
      List.flatten_cons, Nat.add_zero]
    congr 2
    refine List.map_congr_left ?_
    intro j _
    simp only [Function.comp_apply]
    rw [show i + 1 + j = i + j.succ by omega]

theorem flatten_rows (rs : List Bytes) (h : rs ≠ []) :
    (rs.map fun r => r ++ b!",").flatten = List.intercalate b!"," rs ++ b!"," := by
  cases rs with
  | nil => exact absurd rfl h
  | cons r rs =>
    rw [intercalate_cons]
    clear h
    induction rs generalizing r with
    | nil => simp
    | cons x rs ih =>
      rw [List.map_cons, List.flatten_cons, ih x]
      simp

/-! ### Accepted queries -/

/-- An accepted query that writes a slice of records. -/
structure Batch (cat : Catalog) (q : Query) (t : TargetInfo) : Prop extends Built cat q t where
  slice : isInsertOrUpdateSlice q = true

theorem Batch.kind {cat : Catalog} {q : Query} {t : TargetInfo} (h : Batch cat q t) :
    q.rel.type.isSlice = true ∧ (q.kind = .insert ∨ q.kind = .update) := by
  have := h.slice
  simp only [isInsertOrUpdateSlice, isInsertOrUpdate, Bool.and_eq_true, Bool.or_eq_true,
    decide_eq_true_eq] at this
  exact ⟨this.2, this.1⟩

/-- A slice of records is written without where struct, filter and All. -/
theorem Batch.rows {cat : Catalog} {q : Query} {t : TargetInfo} (h : Batch cat q t) :
    q.wher = none ∧ q.all = false ∧ q.filter = none := by
  obtain ⟨hs, hk⟩ := h.kind
  obtain ⟨env, cache, n, fs, s, e, rfl⟩ := h.analyzed
  obtain ⟨_, _, h2, h3⟩ := C33_rows env cache n fs s e
  have : s.q.rowClauses = 0 := by
    rcases hk with hk | hk
    · exact h2 hk
    · exact h3 hk hs
  simp only [Query.rowClauses] at this
  revert this
  cases s.q.wher <;> cases s.q.all <;> cases s.q.filter <;> simp [b2n]

theorem onlyKeys_eq (t : TargetInfo) : onlyKeys t = inputPKeys t := by
  unfold onlyKeys inputPKeys
  congr 1
  funext p
  rw [Bool.eq_iff_iff]
  simp only [decide_eq_true_eq, List.mem_map, Bool.not_eq_true', List.any_eq_false]
  constructor
  · intro h w hw he
    exact h ⟨w, hw, by simpa using he⟩
  · rintro h ⟨w, hw, he⟩
    exact h w hw (by simpa using he)

theorem writeVal_matches {q : Query} (hs : q.rel.type.isSlice = true) (g : G) (w : FieldWrite) :
    Matches (writeVal q g w).1 (writeCell q w) := by
  unfold writeVal writeCell
  by_cases hd : canUseDefault q w.field = true
  · simp only [hd, if_true]; rfl
  · simp only [hd, Bool.false_eq_true, if_false]
    have hu : q.isSliceUpdate = decide (q.kind = .update) := by simp [Query.isSliceUpdate, hs]
    cases hn : w.needsNullif with
    | true =>
      simp only [if_true, Bool.true_eq_false, and_false, if_false, nullLit, addNullif]
      have : ∃ n, (fieldParam g w.idx).1 = .num n := by
        unfold fieldParam; split <;> exact ⟨_, rfl⟩
      by_cases ho : w.column.type.oid = Oid.uuid
      · simp only [ho, if_true, textUnlessParam]
        exact ⟨rfl, rfl⟩
      · simp only [ho, if_false]
        cases w.column.type.zeroValue <;> exact ⟨rfl, rfl⟩
    | false =>
      simp only [Bool.false_eq_true, if_false, hu, decide_eq_true_eq, and_true]
      by_cases hk : q.kind = .update
      · simp only [hk, if_true]; exact ⟨rfl, rfl⟩
      · simp only [hk, if_false]; exact ⟨rfl, rfl⟩

theorem mapSt_matches {β : Type} (f : G → β → VExpr Slot × G) (cell : β → Cell)
    (h : ∀ g x, Matches (f g x).1 (cell x)) : ∀ (xs : List β) (g : G),
    AllMatch (mapSt f g xs).1 (xs.map cell)
  | [], _ => .nil
  | x :: xs, g => .cons (h g x) (mapSt_matches f cell h xs _)

theorem batch_matches {cat : Catalog} {q : Query} {t : TargetInfo} {c : Code} (h : Batch cat q t)
    (hw : t.writes ≠ []) (hc : generate q t = some c) : AllMatch c.rowVals (batchCells q t) := by
  obtain ⟨_, _, _, _, _, _, _, _, _, hr⟩ := generate_split hc
  obtain ⟨hs, hk⟩ := h.kind
  rw [hr]
  have hlen : 0 < t.writes.length := List.length_pos_iff.2 hw
  unfold targetValues batchCells
  rcases hk with hk | hk
  · have hu : q.isSliceUpdate = false := by simp [Query.isSliceUpdate, hk]
    simp only [hu, Bool.false_and, Bool.false_eq_true, if_false, hk, reduceCtorEq]
    exact (mapSt_matches _ _ (writeVal_matches hs) _ _).append .nil
  · have hu : q.isSliceUpdate = true := by simp [Query.isSliceUpdate, hk, hs]
    simp only [hu, Bool.true_and, decide_eq_true_eq, hlen, if_true, hk, onlyKeys_eq]
    refine (mapSt_matches _ _ (writeVal_matches hs) _ _).append (mapSt_matches _ _ ?_ _ _)
    intro g p
    exact ⟨rfl, rfl⟩

theorem writeCell_arg (q : Query) (w : FieldWrite) :
    (writeCell q w).arg = if canUseDefault q w.field then none else some (writeArg q w) := by
  unfold writeCell
  split
  · rfl
  · split
    · rfl
    · split <;> rfl

/-- **C41** Each record supplies its values for the columns in their order; DEFAULT takes none. -/
theorem C41_record_arguments {cat : Catalog} {q : Query} {t : TargetInfo} {c : Code} (h : Batch cat q t)
    (hc : generate q t = some c) : c.args = (batchCells q t).filterMap Cell.arg := by
  obtain ⟨_, _, _, _, _, _, _, _, ha, _⟩ := generate_split hc
  obtain ⟨hs, hk⟩ := h.kind
  obtain ⟨hw, hall, hf⟩ := h.rows
  have hlim := h.toBuilt.shape.limits (by rcases hk with hk | hk <;> rw [hk] <;> rfl)
  have h1 : ∀ ws : List FieldWrite, (ws.filter fun w => !canUseDefault q w.field).map (writeArg q) =
      (ws.map (writeCell q)).filterMap Cell.arg := by
    intro ws
    induction ws with
    | nil => rfl
    | cons w ws ih =>
      simp only [List.filter_cons, List.map_cons, List.filterMap_cons, writeCell_arg]
      cases canUseDefault q w.field <;> simp [ih]
  rw [ha, inputArgs, writeArgs, h1, whereArgs, hw, hlim.1, hlim.2, limitArgs, batchCells,
    List.filterMap_append]
  simp only [List.append_nil, pkeyArgs]
  congr 1
  rcases hk with hk | hk
  · simp [isUpdateWithPKeys, hk]
  · have hp : isUpdateWithPKeys q = true := by
      simp [isUpdateWithPKeys, hk, Query.hasWhere, hw, hall, hf]
    simp only [hp, if_true, hk, onlyKeys_eq, inputRoot, hs, List.filterMap_map, Function.comp_def,
      Cell.arg, List.filterMap_eq_map']

theorem countP_value (cs : List Cell) : cs.countP Cell.isValue = (cs.filterMap Cell.arg).length := by
  induction cs with
  | nil => rfl
  | cons c cs ih =>
    rw [List.countP_cons, List.filterMap_cons, ih]
    cases c <;> rfl

theorem rank_get : ∀ (cs : List Cell) (j : Nat) (c : Cell) (a : GoExpr), cs[j]? = some c → c.arg = some a →
    (cs.filterMap Cell.arg)[rank cs j]? = some a
  | [], j, c, a, h, _ => by simp at h
  | x :: cs, 0, c, a, h, ha => by
    simp only [List.getElem?_cons_zero, Option.some.injEq] at h
    subst h
    rw [rank_zero, List.filterMap_cons, ha]
    rfl
  | x :: cs, j + 1, c, a, h, ha => by
    have := rank_get cs j c a (by simpa using h) ha
    rw [rank_cons, List.filterMap_cons]
    cases x with
    | default => simpa [Cell.arg, Cell.isValue] using this
    | value p q b =>
      simp only [Cell.arg, Cell.isValue, if_true, Nat.add_comm 1, List.getElem?_cons_succ]
      exact this

/-! ### The arguments -/

theorem assignRecords_append (args : List GoExpr) (rs : List (GoExpr → Val)) :
    ∀ (pre mid : List Val) (i : Nat), pre.length = i * args.length → mid.length = rs.length * args.length →
    assignRecords args (pre ++ mid) i rs = some (pre ++ rs.flatMap fun r => args.map (eval r)) := by
  induction rs with
  | nil =>
    intro pre mid i _ hm
    have : mid = [] := by simpa using hm
    simp [assignRecords, this]
  | cons r rs ih =>
    intro pre mid i hp hm
    have hm' : mid.length = args.length + rs.length * args.length := by
      rw [hm, List.length_cons, Nat.succ_mul, Nat.add_comm]
    have hsplit : mid = mid.take args.length ++ mid.drop args.length := (List.take_append_drop _ _).symm
    rw [assignRecords, hsplit, assignFrom_append _ pre _ _ _ (by rw [hp]; simp) (by
      rw [List.length_take, List.length_map]; omega), Option.bind_some]
    have := ih (pre ++ args.map (eval r)) (mid.drop args.length) (i + 1)
      (by rw [List.length_append, List.length_map, hp, Nat.succ_mul]) (by rw [List.length_drop]; omega)
    simp only [List.flatMap_cons]
    rw [← List.append_assoc, ← List.append_assoc]
    rw [← this]
    rfl

/-- **C41** The arguments are those of the first record, followed by those of the second, and so on. -/
theorem C41_arguments {cat : Catalog} {q : Query} {t : TargetInfo} {c : Code} (h : Batch cat q t)
    (_ : generate q t = some c) (w : World) :
    sentArgs q w c = some (w.records.flatMap fun r => c.args.map (eval r)) := by
  have hf := h.rows.2.2
  have hr : recordParams w c = some (w.records.flatMap fun r => c.args.map (eval r)) := by
    unfold recordParams
    rw [makeParams, if_pos (by exact Int.mul_nonneg (by omega) (by omega)), Option.bind_some]
    have := assignRecords_append c.args w.records []
      (List.replicate ((w.records.length : Int) * c.args.length).toNat Val.nil) 0 (by simp)
      (by rw [List.length_replicate, ← Int.natCast_mul, Int.toNat_natCast])
    simpa using this
  unfold sentArgs
  have hadd : ∀ w' p, addFilterParams q w' c p = p := by
    intro w' p
    rw [addFilterParams, if_neg (by simp [hf])]
  rw [buildParams, if_pos h.slice, hr, Option.map_some, hadd]
  by_cases hp : passesParams q c = true
  · rw [if_pos hp]
  · rw [if_neg hp]
    have : c.args = [] := by
      simp only [passesParams, h.slice, Bool.true_and, Bool.or_eq_true, decide_eq_true_eq, not_or] at hp
      exact List.length_eq_zero_iff.1 (by omega)
    simp [this]

/-- **C41** For n > 0 records the statement is continued by n rows separated by commas; the rows hold
DEFAULT and consecutively numbered placeholders. -/
theorem C41_text {cat : Catalog} {q : Query} {t : TargetInfo} {c : Code} (h : Batch cat q t)
    (hw : t.writes ≠ []) (hc : generate q t = some c) (w : World) (hn : w.records ≠ [])
    (hmax : w.records.length * c.args.length ≤ 65535) (main : Bytes) (tail : Option Bytes) :
    recordText w c main tail =
      some (main ++
        List.intercalate b!"," ((List.range w.records.length).map (rowText (batchCells q t))) ++
        (match tail with
         | none => []
         | some t => b!" " ++ t)) := by
  have hm := batch_matches h hw hc
  have hk : c.args.length = (batchCells q t).countP Cell.isValue := by
    rw [countP_value, ← C41_record_arguments h hc]
  have hne : batchCells q t ≠ [] := by
    unfold batchCells
    intro e
    have := List.append_eq_nil_iff.1 e
    exact hw (List.map_eq_nil_iff.1 this.1)
  have hrows := recordRows_eq hm hne hk w.records.length 0 (by simpa using hmax)
  have hpos : 0 < w.records.length := List.length_pos_iff.2 hn
  rw [recordText, hrows, Option.bind_some]
  have hmap : ((List.range w.records.length).map fun j => rowText (batchCells q t) (0 + j) ++ b!",") =
      ((List.range w.records.length).map (rowText (batchCells q t))).map fun r => r ++ b!"," := by
    rw [List.map_map]
    refine List.map_congr_left ?_
    intro j _
    rw [Nat.zero_add]; rfl
  rw [hmap, flatten_rows _ (by
    intro e
    have := congrArg List.length e
    simp at this
    exact hn this)]
  generalize List.intercalate b!"," ((List.range w.records.length).map (rowText (batchCells q t))) = rows
  have hlen : (main ++ (rows ++ b!",")).length = (main ++ rows).length + 1 := by simp; omega
  have htake : (main ++ (rows ++ b!",")).take ((main ++ (rows ++ b!",")).length - 1) = main ++ rows := by
    rw [hlen, Nat.add_sub_cancel, ← List.append_assoc, List.take_left]
  simp only [htake]
  rw [if_neg (by omega)]
  cases tail <;> simp

/-- **C41** The placeholder in the j-th column of the i-th row is bound to the value of that column in the
i-th record. -/
theorem C41_bound {cat : Catalog} {q : Query} {t : TargetInfo} {c : Code} (h : Batch cat q t)
    (hc : generate q t = some c) (w : World) (args : List Val) (ha : sentArgs q w c = some args)
    (i j : Nat) (r : GoExpr → Val) (hr : w.records[i]? = some r) (cell : Cell) (a : GoExpr)
    (hj : (batchCells q t)[j]? = some cell) (hca : cell.arg = some a) :
    args[i * (batchCells q t).countP Cell.isValue + rank (batchCells q t) j]? = some (eval r a) := by
  rw [C41_arguments h hc w, Option.some.injEq] at ha
  have hargs := C41_record_arguments h hc
  have hk : (batchCells q t).countP Cell.isValue = c.args.length := by rw [countP_value, hargs]
  have hg := rank_get (batchCells q t) j cell a hj hca
  rw [← hargs] at hg
  have hlt : rank (batchCells q t) j < c.args.length := (List.getElem?_eq_some_iff.1 hg).1
  rw [← ha, hk]
  generalize rank (batchCells q t) j = x at hg hlt
  clear ha hk hj hca hargs hc
  generalize w.records = rs at hr
  induction rs generalizing i with
  | nil => simp at hr
  | cons s rs ih =>
    rw [List.flatMap_cons]
    cases i with
    | zero =>
      simp only [List.getElem?_cons_zero, Option.some.injEq] at hr
      subst hr
      rw [Nat.zero_mul, Nat.zero_add, List.getElem?_append_left (by simpa using hlt), List.getElem?_map, hg]
      rfl
    | succ i =>
      have hge : c.args.length ≤ (i + 1) * c.args.length + x := by rw [Nat.succ_mul]; omega
      rw [List.getElem?_append_right (by rw [List.length_map]; exact hge), List.length_map,
        show (i + 1) * c.args.length + x - c.args.length = i * c.args.length + x by
          rw [Nat.succ_mul]; omega]
      exact ih i (by simpa using hr)

end Verif.Generator
