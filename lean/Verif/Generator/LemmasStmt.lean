import Verif.Generator.LemmasParams

/- The numbering of a whole statement. -/
namespace Verif.Generator
open Verif.Analysis Verif.Postgres

/-- What the checker guarantees about its result (see `wf_of_accepted`). -/
structure Wf (q : Query) (t : TargetInfo) : Prop where
  writesNodup : (t.writes.map (·.idx)).Nodup
  pkeysNodup : (t.pkeys.map (·.idx)).Nodup
  joinsLength : ∀ j, q.join = some j → j.directives.length ≤ t.joins.length
  wherNone : q.wher = none → t.wher = []

/-- [NOT] IN compares columns with fields only. -/
def inWithFields (t : TargetInfo) : Bool := joinsOk t.joins && condsOk t.wher

/-- No primary key is set to DEFAULT by an update that selects its record by primary key. -/
def keysKept (q : Query) (t : TargetInfo) : Prop :=
  isUpdateWithPKeys q = true → ∀ w ∈ t.writes, ∀ p ∈ t.pkeys, w.idx = p.idx →
    canUseDefault q w.field = false

/-- The argument of the field at a position. -/
def argOf (q : Query) (t : TargetInfo) (i : Nat) : GoExpr :=
  match t.writes.find? fun v => v.idx = i with
  | some v => writeArg q v
  | none =>
    match t.pkeys.find? fun v => v.idx = i with
    | some p => fieldSel (inputRoot q) p.field
    | none => noSel

theorem find_idx {l : List FieldWrite} (h : (l.map (·.idx)).Nodup) {w : FieldWrite} (hw : w ∈ l) :
    l.find? (fun v => decide (v.idx = w.idx)) = some w := by
  induction l with
  | nil => cases hw
  | cons a l ih =>
    simp only [List.map_cons, List.nodup_cons] at h
    rw [List.find?_cons]
    rcases List.mem_cons.mp hw with rfl | hw
    · simp
    · have hne : a.idx ≠ w.idx := by
        intro e
        exact h.1 (by rw [e]; exact List.mem_map_of_mem hw)
      simp only [hne, decide_false]
      exact ih h.2 hw

theorem argOf_write {q : Query} {t : TargetInfo} (h : Wf q t) {w : FieldWrite} (hw : w ∈ t.writes) :
    argOf q t w.idx = writeArg q w := by
  simp only [argOf, find_idx h.writesNodup hw]

theorem argOf_pkey {q : Query} {t : TargetInfo} (h : Wf q t) {p : FieldWrite} (hp : p ∈ t.pkeys) :
    argOf q t p.idx = pkeyExpr q t p := by
  simp only [argOf, pkeyExpr, find_idx h.pkeysNodup hp]
  rfl

/-- The slices of the where struct. -/
def whereSlices (q : Query) (t : TargetInfo) : List GoExpr :=
  match q.wher with
  | none => []
  | some w => condsSlices (.sel recv w.fieldName) t.wher

theorem writeArgs_eq (q : Query) (t : TargetInfo) :
    writeArgs q t = (nonDefault q t.writes).map (writeArg q) := rfl

theorem targetValues_plain {q : Query} (t : TargetInfo) (hq : q.isSliceUpdate = false) :
    targetValues q t =
      { vals := (mapSt (writeVal q) {} t.writes).1, pkeys := []
        g := (mapSt (writeVal q) {} t.writes).2 } := by
  simp [targetValues, hq]

theorem hasNum_init (i : Nat) : hasNum {} i = false := rfl

/-- The where clause: what is built, and the state after it. -/
theorem where_phase {q : Query} {t : TargetInfo} (h : Wf q t) (hin : inWithFields t = true)
    (hk : keysKept q t) (hslice : isInsertOrUpdateSlice q = false) {g : G} {args : List GoExpr}
    (post spost : List GoExpr) (hi : Inv g args (argOf q t)) (hs : g.slices = [])
    (hn : ∀ i, hasNum g i = (nonDefault q t.writes).any fun w => w.idx = i) :
    ∃ w g', buildWhere q t g = some (w, g') ∧
      w.map (BList.map (resolve (args ++ (whereArgs q t ++ pkeyArgs q t) ++ post)
        (whereSlices q t ++ spost))) = (whereSpec q t).map (BList.map some) ∧
      g'.num = (args ++ (whereArgs q t ++ pkeyArgs q t)).length ∧ g'.slices = whereSlices q t := by
  simp only [inWithFields, Bool.and_eq_true] at hin
  cases hu : isUpdateWithPKeys q with
  | true =>
    have hno : q.wher = none := by
      have h1 := hu
      simp only [isUpdateWithPKeys, Query.hasWhere, Bool.and_eq_true, Bool.not_eq_true',
        Bool.or_eq_false_iff] at h1
      cases hw : q.wher with
      | none => rfl
      | some w => rw [hw] at h1; simp at h1
    have hrs : q.rel.type.isSlice = false := by
      have h1 := hu
      simp only [isUpdateWithPKeys, Bool.and_eq_true, decide_eq_true_eq] at h1
      simpa [isInsertOrUpdateSlice, isInsertOrUpdate, h1.1] using hslice
    have hnum : ∀ p ∈ t.pkeys, hasNum g p.idx = t.writes.any fun w => decide (w.idx = p.idx) := by
      intro p hp
      rw [hn p.idx, Bool.eq_iff_iff, List.any_eq_true, List.any_eq_true]
      constructor
      · rintro ⟨w, hw, e⟩
        exact ⟨w, (List.mem_filter.mp hw).1, e⟩
      · rintro ⟨w, hw, e⟩
        refine ⟨w, List.mem_filter.mpr ⟨hw, ?_⟩, e⟩
        rw [hk hu w hw p hp (by simpa using e)]
        rfl
    obtain ⟨h1, h2, h3⟩ := pkeys_phase q t (argOf q t) t.pkeys g args post
      (whereSlices q t ++ spost) true hi hnum h.pkeysNodup (fun p hp => argOf_pkey h hp)
    have hwa : whereArgs q t = [] := by simp [whereArgs, hno]
    have hws : whereSlices q t = [] := by simp [whereSlices, hno]
    have hpa : pkeyArgs q t = ((t.pkeys.filter fun p => !t.writes.any fun w => decide (w.idx = p.idx)).map
        (fun w => fieldSel (inputRoot q) w.field)) := by
      simp only [pkeyArgs, hu, if_true, inputPKeys]
    refine ⟨some (pkeyConds false g true t.pkeys).1, (pkeyConds false g true t.pkeys).2, ?_, ?_, ?_, ?_⟩
    · simp only [buildWhere, hu, if_true, hrs]
    · simp only [whereSpec, hu, if_true, hwa, List.nil_append, hpa, Option.map_some, h1]
    · rw [hwa, List.nil_append, hpa, h2.num]
    · rw [h3, hs, hws]
  | false =>
    have hpa : pkeyArgs q t = [] := by simp [pkeyArgs, hu]
    cases hw : q.wher with
    | none =>
      have ht := h.wherNone hw
      have hwa : whereArgs q t = [] := by simp [whereArgs, hw]
      have hws : whereSlices q t = [] := by simp [whereSlices, hw]
      refine ⟨none, g, ?_, ?_, ?_, ?_⟩
      · simp [buildWhere, hu, ht]
      · simp [whereSpec, hu, hw]
      · simp [hwa, hpa, hi.num]
      · rw [hs, hws]
    | some w =>
      have hwa : whereArgs q t = condsArgs (.sel recv w.fieldName) t.wher := by simp [whereArgs, hw]
      have hws : whereSlices q t = condsSlices (.sel recv w.fieldName) t.wher := by
        simp [whereSlices, hw]
      by_cases hl : t.wher.length > 0
      · have hst := condList_state (.sel recv w.fieldName) g true none t.wher hin.2
        have hm := condList_map (.sel recv w.fieldName) g true none args post spost hi.num t.wher hin.2
        rw [hs, List.nil_append] at hm
        refine ⟨some (condList (.sel recv w.fieldName) g true none t.wher).1,
          (condList (.sel recv w.fieldName) g true none t.wher).2, ?_, ?_, ?_, ?_⟩
        · simp only [buildWhere, hu, Bool.false_eq_true, if_false, hl, if_true, hw]
        · simp only [whereSpec, hu, Bool.false_eq_true, if_false, hw, hl, if_true, hwa, hpa, hws,
            List.append_nil, Option.map_some, hm]
        · rw [hst, hwa, hpa]; simp [G.add, hi.num]
        · rw [hst, hws]; simp [G.add, hs]
      · have ht : t.wher = [] := by
          cases hc : t.wher with
          | nil => rfl
          | cons a l => rw [hc] at hl; simp at hl
        refine ⟨none, g, ?_, ?_, ?_, ?_⟩
        · simp [buildWhere, hu, ht]
        · simp [whereSpec, hu, hw, ht]
        · rw [hwa, hpa, ht]; simp [condsArgs, hi.num]
        · rw [hws, ht]; simp [condsSlices, hs]

/-- The statement, with the arguments in place of the parameters. -/
theorem generate_spec {q : Query} {t : TargetInfo} (h : Wf q t) (hin : inWithFields t = true)
    (hk : keysKept q t) (hslice : isInsertOrUpdateSlice q = false) :
    (generate q t).map (fun c => c.sql.map (resolve c.args c.g.slices)) =
        (sqlSpec q t).map (SQL.map some) ∧
      ∀ c, generate q t = some c →
        c.args = inputArgs q t ∧ c.g.num = c.args.length ∧ c.g.slices = whereSlices q t := by
  have hsu : q.isSliceUpdate = false := by
    cases hs : q.isSliceUpdate with
    | false => rfl
    | true =>
      simp only [Query.isSliceUpdate, Bool.and_eq_true, decide_eq_true_eq] at hs
      simp [isInsertOrUpdateSlice, isInsertOrUpdate, hs.1, hs.2] at hslice
  have hin' := hin
  simp only [inWithFields, Bool.and_eq_true] at hin'
  have hA : inputArgs q t = writeArgs q t ++ (whereArgs q t ++ pkeyArgs q t) ++
      limitArgs q.limit ++ limitArgs q.offset := by
    simp only [inputArgs, List.append_assoc]
  obtain ⟨w1, w2, w3, w4⟩ := writes_phase q hsu (argOf q t) t.writes {} []
    ((whereArgs q t ++ pkeyArgs q t) ++ limitArgs q.limit ++ limitArgs q.offset) (whereSlices q t)
    (Inv.init _) (fun _ _ => rfl) h.writesNodup (fun w hw => argOf_write h hw)
  rw [List.nil_append, ← writeArgs_eq] at w1 w2
  have hA1 : writeArgs q t ++ (whereArgs q t ++ pkeyArgs q t ++ limitArgs q.limit ++
      limitArgs q.offset) = inputArgs q t := by simp only [inputArgs, List.append_assoc]
  rw [hA1] at w1
  have hsl : (mapSt (writeVal q) {} t.writes).2.slices = [] := w3
  -- joins
  have hJ : ∃ js, buildJoins q t (mapSt (writeVal q) {} t.writes).2 =
        some (js, (mapSt (writeVal q) {} t.writes).2) ∧
      js.map (TableJoin.map (resolve (inputArgs q t) (whereSlices q t))) =
        (joinsSpec q t).map (TableJoin.map some) := by
    unfold buildJoins joinsSpec
    cases hj : q.join with
    | none => exact ⟨[], rfl, rfl⟩
    | some j =>
      refine tableJoins_ok _ _ j.directives _ t.joins hin'.1 (h.joinsLength j hj) ?_ ?_ ?_
      · rw [w2.num, hA]; simp only [List.length_append]; omega
      · rw [w2.num]; omega
      · rw [hsl]; exact List.nil_prefix
  obtain ⟨js, hj1, hj2⟩ := hJ
  -- where
  obtain ⟨w, g', hw1, hw2, hw3, hw4⟩ := where_phase h hin hk hslice
    (limitArgs q.limit ++ limitArgs q.offset) [] w2 hsl
    (by intro i; rw [w4 i, hasNum_init, Bool.false_or])
  rw [List.append_nil] at hw2
  have hA2 : writeArgs q t ++ (whereArgs q t ++ pkeyArgs q t) ++ (limitArgs q.limit ++
      limitArgs q.offset) = inputArgs q t := by simp only [inputArgs, List.append_assoc]
  rw [hA2] at hw2
  -- limit and offset
  obtain ⟨l1, l2⟩ := limit_phase q g' _ (limitArgs q.offset) (whereSlices q t) hw3
  rw [← hA] at l1
  have hgn : (buildLimit q g').2.num =
      (writeArgs q t ++ (whereArgs q t ++ pkeyArgs q t) ++ limitArgs q.limit).length := by
    rw [l2]; simp only [G.add, hw3, List.length_append]; push_cast; omega
  obtain ⟨o1, o2⟩ := offset_phase q (buildLimit q g').2 _ [] (whereSlices q t) hgn
  rw [List.append_nil, ← hA] at o1
  have hos : (buildOffset q (buildLimit q g').2).2.slices = whereSlices q t := by
    rw [o2, l2]; simp [G.add, hw4]
  have hon : (buildOffset q (buildLimit q g').2).2.num = (inputArgs q t).length := by
    rw [o2, hA]; simp only [G.add, hgn, List.length_append]; push_cast; omega
  have hgen : generate q t =
      (buildStmt q t (mapSt (writeVal q) {} t.writes).1
        { joins := js, wher := w, limit := (buildLimit q g').1
          offset := (buildOffset q (buildLimit q g').2).1 }).map fun s =>
        { sql := s, rowVals := (mapSt (writeVal q) {} t.writes).1 ++ [], args := inputArgs q t
          g := (buildOffset q (buildLimit q g').2).2 } := by
    simp only [generate, targetValues_plain t hsu, hj1, Option.bind_some, hw1]
  constructor
  · rw [hgen, Option.map_map]
    simp only [Function.comp_def, hos]
    rw [show (fun x : SQL Slot => SQL.map (resolve (inputArgs q t) (whereSlices q t)) x) =
      SQL.map (resolve (inputArgs q t) (whereSlices q t)) from rfl]
    rw [map_buildStmt, sqlSpec, map_buildStmt]
    congr 1
    · rw [w1, List.map_map]; rfl
    · simp only [Clauses.map, hj2, hw2, l1, o1]
  · intro c hc
    rw [hgen, Option.map_eq_some_iff] at hc
    obtain ⟨s, _, rfl⟩ := hc
    exact ⟨rfl, hon, hos⟩

end Verif.Generator
