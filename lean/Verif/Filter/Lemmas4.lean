import Verif.Filter.Lemmas3
/- Helper lemmas for the filter properties: limits, pages, FQL errors, sort keys. -/
namespace Verif.Filter

open Verif

variable {α : Type}

/-- The segments of the WHERE clause after a call sequence. -/
def segsOf (cm : List (Bytes × Column α)) (ts : Bytes) (calls : List (Call α)) : List (Seg α) :=
  (runCalls calls (Cons.initV2 {} cm ts)).filter.where_.map Node.seg

theorem segsOf_preds (cm : List (Bytes × Column α)) (ts : Bytes) (calls : List (Call α)) :
    preds (segsOf cm ts calls) = requested cm ts calls false := by
  have := (runCalls_frame calls (Cons.initV2 {} cm ts)).2.2
  simpa [Cons.preds, Cons.initV2, segsOf, preds] using this

theorem countSQL_eq (cm : List (Bytes × Column α)) (ts : Bytes) (calls : List (Call α)) (pos : Nat) :
    countSQL cm ts calls pos =
      let ps := wherePieces (segsOf cm ts calls)
      if (holes ps).length = 0 ∨ pos + (holes ps).length ≤ maxParams
      then some (render ps pos, holes ps) else none := by
  unfold countSQL FilterS.countSQL
  rw [whereSQL_eq]
  unfold segsOf
  generalize wherePieces _ = ps
  dsimp only
  by_cases h : (holes ps).length = 0 ∨ pos + (holes ps).length ≤ maxParams
  · rw [if_pos h, if_pos h]; rfl
  · rw [if_neg h, if_neg h]; rfl

theorem holes_append (a b : List (Piece α)) : holes (a ++ b) = holes a ++ holes b := by
  induction a with
  | nil => rfl
  | cons p ps ih => cases p <;> simp [holes, ih]

theorem holes_segs (segs : List (Seg α)) :
    holes (segs.flatMap Seg.pieces) = (preds segs).flatMap (fun p => holes p.pieces) := by
  induction segs with
  | nil => rfl
  | cons s ss ih =>
    rw [List.flatMap_cons, holes_append, ih]
    cases s <;> simp [preds, Seg.pieces, holes]

theorem holes_where (segs : List (Seg α)) :
    holes (wherePieces segs) = (preds segs).flatMap (fun p => holes p.pieces) := by
  unfold wherePieces
  split
  · rename_i h; subst h; rfl
  · rw [holes, holes_segs]

/-! limit / offset -/

theorem limits_fold (cs : List (Call α)) (lo : Int64 × Int64) :
    (cs.foldl (fun lo y => y.limOff lo) lo).1 =
      ((lastPositive (cs.filterMap fun | .limit n => some n | _ => none)).getD lo.1) := by
  induction cs generalizing lo with
  | nil => rfl
  | cons c cs ih =>
    rw [List.foldl_cons, ih]
    have hne : ∀ lo', (c.limOff lo').1 = lo'.1 ∨ ∃ n, c = .limit n := by
      intro lo'
      cases c <;> simp [Call.limOff] <;> split <;> simp
    cases c with
    | limit n =>
      simp only [List.filterMap_cons, lastPositive, List.filter_cons]
      by_cases hn : 0 < n
      · simp [hn, Call.limOff, List.getLast?_cons]
      · simp [hn, Call.limOff]
    | _ =>
      rcases hne lo with h | ⟨n, h⟩
      · rw [h]; rfl
      · cases h

theorem offsets_fold (cs : List (Call α)) (lo : Int64 × Int64) (hp : ∀ n, Call.page n ∉ cs) :
    (cs.foldl (fun lo y => y.limOff lo) lo).2 =
      ((lastPositive (cs.filterMap fun | .offset n => some n | _ => none)).getD lo.2) := by
  induction cs generalizing lo with
  | nil => rfl
  | cons c cs ih =>
    rw [List.foldl_cons, ih _ (fun n hn => hp n (by simp [hn]))]
    cases c with
    | offset n =>
      simp only [List.filterMap_cons, lastPositive, List.filter_cons]
      by_cases hn : 0 < n
      · simp [hn, Call.limOff, List.getLast?_cons]
      · simp [hn, Call.limOff]
    | page n => exact absurd (by simp) (hp n)
    | limit n =>
      have : (Call.limOff (α := α) (.limit n) lo).2 = lo.2 := by
        simp only [Call.limOff]; split <;> rfl
      rw [this]; rfl
    | _ => rfl

theorem lastPositive_pos {ns : List Int64} {n : Int64} (h : lastPositive ns = some n) : 0 < n := by
  have := List.mem_of_getLast? h
  simpa using (List.mem_filter.1 this).2

theorem clause_eq (kw : Bytes) (o : Option Int64) (h : ∀ n, o = some n → 0 < n) :
    (if o.getD 0 > 0 then kw ++ formatPos (o.getD 0) else []) = clause kw o := by
  cases o with
  | none => simp [clause]
  | some n =>
    have := h n rfl
    simp [clause, formatPos, itoa, this]

theorem tailText_eq (cm : List (Bytes × Column α)) (ts : Bytes) (calls : List (Call α)) :
    let c := runCalls calls (Cons.initV2 {} cm ts)
    tailText c.filter = orderByText (ordering cm calls false) ++
      clause b!" LIMIT " (lastPositive (limitArgs calls)) ++
      (if c.filter.offset > 0 then b!" OFFSET " ++ formatPos c.filter.offset else []) := by
  intro c
  have h1 : c.filter.orderby = addItems [] (ordering cm calls false) :=
    runCalls_orderby calls (Cons.initV2 {} cm ts)
  have h2 : c.filter.limit = (lastPositive (limitArgs calls)).getD 0 := by
    have := congrArg Prod.fst (runCalls_limOff calls (Cons.initV2 {} cm ts))
    rw [limits_fold] at this
    exact this
  unfold tailText
  rw [h1, orderBy_part, h2, clause_eq _ _ (fun n hn => lastPositive_pos hn)]

theorem filterSQL_eq (cm : List (Bytes × Column α)) (ts : Bytes) (calls : List (Call α)) (pos : Nat) :
    filterSQL cm ts calls pos = (countSQL cm ts calls pos).map fun r =>
      (r.1 ++ tailText (runCalls calls (Cons.initV2 {} cm ts)).filter, r.2) := toSQL_eq _ _

theorem flatCalls_append (a b : List (Call α)) : flatCalls (a ++ b) = flatCalls a ++ flatCalls b := by
  induction a with
  | nil => rfl
  | cons x xs ih => simp [flatCalls, ih]

theorem fold_keep {cs : List (Call α)} {lo : Int64 × Int64}
    (h : ∀ y ∈ cs, ∀ lo : Int64 × Int64, y.limOff lo = lo) :
    cs.foldl (fun lo y => y.limOff lo) lo = lo := by
  induction cs generalizing lo with
  | nil => rfl
  | cons c cs ih =>
    rw [List.foldl_cons, h c (by simp)]
    exact ih (fun y hy => h y (by simp [hy]))

theorem fold_keep_fst {cs : List (Call α)} {lo : Int64 × Int64}
    (h : ∀ y ∈ cs, ∀ n, y ≠ .limit n) :
    (cs.foldl (fun lo y => y.limOff lo) lo).1 = lo.1 := by
  induction cs generalizing lo with
  | nil => rfl
  | cons c cs ih =>
    rw [List.foldl_cons, ih (fun y hy => h y (by simp [hy]))]
    cases c with
    | limit n => exact absurd rfl (h _ (by simp) n)
    | _ => simp [Call.limOff] <;> split <;> simp

theorem bmod_small (x : Int) (h0 : 0 ≤ x) (h1 : x < 2 ^ 63) : x.bmod (2 ^ 64) = x := by
  rw [Int.bmod_eq_emod_of_lt] <;> omega

/-! sort keys -/

theorem sortItems_columns (cm : List (Bytes × Column α)) (strict : Bool) (its : List Bytes) :
    ∀ i ∈ (sortItems cm strict its).1, ∃ k cl, (k, cl) ∈ cm ∧ i.column = cl.name := by
  induction its with
  | nil => simp [sortItems]
  | cons it its ih =>
    rw [sortItems]
    cases hk : sortKey it with
    | mk key desc =>
      simp only
      split
      · exact ih
      · cases hcol : columnFor cm key with
        | none =>
          simp only
          split
          · simp
          · exact ih
        | some cl =>
          simp only
          intro i hi
          rcases List.mem_cons.1 hi with e | e
          · subst e
            obtain ⟨k, hk⟩ := columnFor_mem hcol
            exact ⟨k, cl, hk, rfl⟩
          · exact ih i e

theorem sortItems_error (cm : List (Bytes × Column α)) (strict : Bool) (its : List Bytes) :
    (sortItems cm strict its).2 =
      if strict then
        (((its.map (fun i => (sortKey i).1)).filter (· ≠ [])).find?
          (fun k => (columnFor cm k).isNone)).map Err.unknownKey
      else none := by
  induction its with
  | nil => cases strict <;> rfl
  | cons it its ih =>
    rw [sortItems]
    cases hk : sortKey it with
    | mk key desc =>
      simp only [List.map_cons, hk]
      by_cases he : key = []
      · simp [he, ih]
      · simp only [he, if_false]
        have hf : (key :: its.map (fun i => (sortKey i).1)).filter (· ≠ []) =
            key :: (its.map (fun i => (sortKey i).1)).filter (· ≠ []) := by
          simp [he]
        rw [hf, List.find?_cons]
        cases hcol : columnFor cm key with
        | none => cases strict <;> simp [ih]
        | some cl => simp [ih]

/-! FQL errors -/

theorem colPred_column (column op : Bytes) (v : Val α) (p : Pred α)
    (h : colPred column op v = some p) : p.column = column := by
  unfold colPred at h
  split at h
  · cases v <;> simp at h; subst h; rfl
  · split at h
    · cases v <;> simp at h; subst h; rfl
    · cases v with
      | nil =>
        simp only at h
        by_cases h1 : op = b!"="
        · rw [if_pos h1] at h; cases h; rfl
        · rw [if_neg h1] at h
          by_cases h2 : op = b!"<>"
          · rw [if_pos h2] at h; cases h; rfl
          · rw [if_neg h2] at h; cases h
      | bool b =>
        simp only at h
        by_cases h1 : op = b!"="
        · rw [if_pos h1] at h; cases h; rfl
        · rw [if_neg h1] at h
          by_cases h2 : op = b!"<>"
          · rw [if_pos h2] at h; cases h; rfl
          · rw [if_neg h2] at h; cases h
      | slice => cases h; rfl
      | other => cases h; rfl

theorem fqlPreds_columns (cm : List (Bytes × Column α)) (strict : Bool) (ts : List (Tok α)) :
    ∀ p ∈ fqlPreds cm strict ts, ∃ k cl, (k, cl) ∈ cm ∧ p.column = cl.name := by
  induction ts with
  | nil => simp [fqlPreds]
  | cons t ts ih =>
    cases t with
    | rule key cmp val =>
      simp only [fqlPreds]
      cases hk : columnFor cm key with
      | none =>
        simp only
        split
        · simp
        · exact ih
      | some cl =>
        obtain ⟨k, hmem⟩ := columnFor_mem hk
        have key : ∀ v, ∀ p ∈ (colPred cl.name (Cmp.sql cmp) v).toList ++ fqlPreds cm strict ts,
            ∃ k cl, (k, cl) ∈ cm ∧ p.column = cl.name := by
          intro v p hp
          rcases List.mem_append.1 hp with h | h
          · simp only [Option.mem_toList] at h
            exact ⟨k, cl, hmem, colPred_column _ _ _ _ h⟩
          · exact ih p h
        simp only
        cases cl.convert with
        | none => exact key _
        | some f =>
          simp only
          cases f (val.getD .nil) with
          | error m => simp
          | ok v => exact key _
    | _ => exact ih

theorem fql_error (fin : Option Err) (pre post : List (Tok α)) (key : Bytes) (cmp : Cmp)
    (val : Option (Val α)) (c : Cons α) (hs : c.strict = true)
    (hk : columnFor c.colmap key = none) (hr : RulesRun c.colmap true pre) :
    (c.fqlLoop fin (pre ++ .rule key cmp val :: post)).2 = some (.unknownKey key) := by
  induction pre generalizing c with
  | nil => simp [Cons.fqlLoop, lookup_eq, hk, hs]
  | cons t ts ih =>
    have hr' : RulesRun c.colmap true ts := fun k c' v hm => hr k c' v (by simp [hm])
    cases t with
    | rule k' cmp' val' =>
      have h0 := hr k' cmp' val' (by simp)
      simp only [List.cons_append, Cons.fqlLoop, cmpStr_eq, lookup_eq]
      cases hcol : columnFor c.colmap k' with
      | none => rw [hcol] at h0; simp at h0
      | some cl =>
        rw [hcol] at h0
        simp only at h0 ⊢
        have step : ∀ v, ((c.col cl.name (Cmp.sql cmp') v).fqlLoop fin
            (ts ++ .rule key cmp val :: post)).2 = some (.unknownKey key) := by
          intro v
          have he := col_env c cl.name (Cmp.sql cmp') v
          apply ih
          · rw [he.2, hs]
          · rw [colmap_of_env he.1]; exact hk
          · rw [colmap_of_env he.1]; exact hr'
        cases hcv : cl.convert with
        | none => exact step _
        | some f =>
          obtain ⟨w, hw⟩ := h0 f hcv
          simp only [hw]
          exact step _
    | lparen => simp only [List.cons_append, Cons.fqlLoop]; exact ih _ (by simpa using hs) (by simpa using hk) (by simpa using hr')
    | rparen => simp only [List.cons_append, Cons.fqlLoop]; exact ih _ (by simpa using hs) (by simpa using hk) (by simpa using hr')
    | and => simp only [List.cons_append, Cons.fqlLoop]; exact ih _ (by simpa using hs) (by simpa using hk) (by simpa using hr')
    | or => simp only [List.cons_append, Cons.fqlLoop]; exact ih _ (by simpa using hs) (by simpa using hk) (by simpa using hr')

theorem runCalls_append (a b : List (Call α)) (c : Cons α) :
    runCalls (a ++ b) c = runCalls b (runCalls a c) := by
  induction a generalizing c with
  | nil => rfl
  | cons x xs ih => simp [runCalls, ih]

theorem strictAfter_append (a b : List (Call α)) (s : Bool) :
    strictAfter (a ++ b) s = strictAfter b (strictAfter a s) := by
  induction a generalizing s with
  | nil => rfl
  | cons x xs ih => simp [strictAfter, ih]

theorem requested_append (cm : List (Bytes × Column α)) (ts : Bytes) (a b : List (Call α)) (s : Bool) :
    requested cm ts (a ++ b) s = requested cm ts a s ++ requested cm ts b (strictAfter a s) := by
  induction a generalizing s with
  | nil => rfl
  | cons x xs ih => simp [requested, strictAfter, ih]

theorem ordering_append (cm : List (Bytes × Column α)) (a b : List (Call α)) (s : Bool) :
    ordering cm (a ++ b) s = ordering cm a s ++ ordering cm b (strictAfter a s) := by
  induction a generalizing s with
  | nil => rfl
  | cons x xs ih => simp [ordering, strictAfter, ih]

theorem toUpper_iff (u l : Char) (hu : u.val ≥ 65 ∧ u.val ≤ 90) (hl : l.val = u.val + 32) (c : Char) :
    c.toUpper = u ↔ c = u ∨ c = l := by
  unfold Char.toUpper
  split
  · next h =>
    simp only [Char.ext_iff] at *
    constructor
    · intro e; right; rw [hl, ← e]; simp [UInt32.add_assoc]
    · rintro (e | e)
      · exfalso; rw [e] at h
        have := h.1
        have h2 := hu.2
        simp only [UInt32.le_iff_toNat_le, ge_iff_le] at *
        simp at *; omega
      · rw [hl] at e; simp [e, UInt32.add_assoc]
  · next h =>
    simp only [Char.ext_iff] at *
    constructor
    · exact Or.inl
    · rintro (e | e)
      · exact e
      · exfalso; apply h; rw [e, hl]
        obtain ⟨h1, h2⟩ := hu
        simp only [UInt32.le_iff_toNat_le, ge_iff_le] at *
        simp at *; omega

end Verif.Filter
