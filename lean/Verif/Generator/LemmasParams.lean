import Verif.Generator.LemmasCond

/- The parameters of a whole statement. -/
namespace Verif.Generator
open Verif.Analysis Verif.Postgres

/-! ### Joins -/

theorem joinConds_none (sx : GoExpr) (cs : List JoinCond) :
    condsArgs sx (cs.map joinCond) = [] ∧ condsSlices sx (cs.map joinCond) = [] := by
  induction cs with
  | nil => exact ⟨rfl, rfl⟩
  | cons c cs ih =>
    cases c <;> simp [joinCond, condsArgs, condsSlices, condArgs, condSlices, ih.1, ih.2]

/-- [NOT] IN is not used in the joins. -/
def joinsOk (js : List (List JoinCond)) : Bool := js.all fun cs => condsOk (cs.map joinCond)

theorem tableJoins_ok (args slices : List GoExpr) (ds : List JoinDir) :
    ∀ (g : G) (cs : List (List JoinCond)), joinsOk cs = true → ds.length ≤ cs.length →
      g.num ≤ args.length → 0 ≤ g.num →  g.slices <+: slices →
      ∃ js, tableJoins g ds cs = some (js, g) ∧
        js.map (TableJoin.map (resolve args slices)) =
          (List.zipWith joinSpec ds cs).map (TableJoin.map some) := by
  induction ds with
  | nil => intro g cs _ _ _ _ _; exact ⟨[], rfl, rfl⟩
  | cons d ds ih =>
    intro g cs hj hl hn h0 hs
    cases cs with
    | nil => simp at hl
    | cons c cs =>
      simp only [joinsOk, List.all_cons, Bool.and_eq_true] at hj
      have hst := condList_state noSel g true none (c.map joinCond) hj.1
      have hno := joinConds_none noSel c
      rw [hno.1, hno.2, List.length_nil, G.add_zero] at hst
      obtain ⟨spost, hsp⟩ := hs
      obtain ⟨k, hk⟩ : ∃ k : Nat, g.num = k := ⟨g.num.toNat, by omega⟩
      have hm := condList_map noSel g true none (args.take k) (args.drop k) spost
        (by rw [hk, List.length_take]; omega) (c.map joinCond) hj.1
      rw [hno.1, hno.2, List.append_nil, List.append_nil, List.take_append_drop, hsp] at hm
      obtain ⟨js, h1, h2⟩ := ih g cs hj.2 (by simpa using hl) hn h0 ⟨spost, hsp⟩
      refine ⟨{ type := d.joinType, rel := d.relIdent,
                cond := (condList noSel g true none (c.map joinCond)).1 } :: js, ?_, ?_⟩
      · simp only [tableJoins, hst, h1, Option.map_some]
      · simp only [List.map_cons, List.zipWith_cons_cons, h2, joinSpec, TableJoin.map, hm]

/-! ### Fields -/

/-- The numbers given to fields are those of their arguments. -/
structure Inv (g : G) (args : List GoExpr) (argOf : Nat → GoExpr) : Prop where
  num : g.num = args.length
  set : ∀ i n, List.lookup i g.set = some n → resolve args [] (.num n) = some (argOf i)

theorem Inv.init (argOf : Nat → GoExpr) : Inv {} [] argOf :=
  ⟨rfl, fun _ _ h => by cases h⟩

theorem resolve_num_slices (args s s' : List GoExpr) (n : Int) :
    resolve args s (.num n) = resolve args s' (.num n) := rfl

theorem Inv.fresh {g : G} {args : List GoExpr} {argOf : Nat → GoExpr} (h : Inv g args argOf)
    (i : Nat) (e : GoExpr) (he : argOf i = e) :
    Inv { g with num := g.num + 1, set := (i, g.num + 1) :: g.set } (args ++ [e]) argOf := by
  refine ⟨by simp [h.num], ?_⟩
  intro j n hj
  rw [List.lookup_cons] at hj
  split at hj
  · rename_i hji
    cases hj
    rw [resolve_num args [] [] e g.num h.num]
    rw [← he, beq_iff_eq.mp hji]
  · have := resolve_append [e] [] (h.set j n hj)
    simpa using this

/-- Setting the number of a parameter that is asked for once. -/
theorem Inv.skip {g : G} {args : List GoExpr} {argOf : Nat → GoExpr} (h : Inv g args argOf)
    (es s : List GoExpr) : Inv (g.add es.length s) (args ++ es) argOf := by
  refine ⟨by simp [G.add, h.num], ?_⟩
  intro j n hj
  have := resolve_append es [] (h.set j n hj)
  simpa using this

def nonDefault (q : Query) (ws : List FieldWrite) : List FieldWrite :=
  ws.filter fun w => !canUseDefault q w.field

theorem nonDefault_cons (q : Query) (w : FieldWrite) (ws : List FieldWrite) :
    nonDefault q (w :: ws) =
      (if canUseDefault q w.field then [] else [w]) ++ nonDefault q ws := by
  simp only [nonDefault, List.filter_cons]
  cases canUseDefault q w.field <;> simp

theorem lookup_cons_ne {i j : Nat} {n : Int} {s : List (Nat × Int)} (h : i ≠ j) :
    List.lookup i ((j, n) :: s) = List.lookup i s := by
  rw [List.lookup_cons]
  split
  · rename_i hij
    exact absurd (beq_iff_eq.mp hij) h
  · rfl

theorem lookup_cons_eq {i : Nat} {n : Int} {s : List (Nat × Int)} :
    List.lookup i ((i, n) :: s) = some n := by
  simp

/-- Which fields have a number. -/
def hasNum (g : G) (i : Nat) : Bool := (List.lookup i g.set).isSome

theorem writes_phase (q : Query) (hq : q.isSliceUpdate = false) (argOf : Nat → GoExpr)
    (ws : List FieldWrite) :
    ∀ (g : G) (args post slices : List GoExpr), Inv g args argOf →
      (∀ w ∈ ws, hasNum g w.idx = false) → (ws.map (·.idx)).Nodup →
      (∀ w ∈ ws, argOf w.idx = writeArg q w) →
      (mapSt (writeVal q) g ws).1.map
          (VExpr.map (resolve (args ++ (nonDefault q ws).map (writeArg q) ++ post) slices)) =
        ws.map (fun w => (writeSpec q w).map some) ∧
      Inv (mapSt (writeVal q) g ws).2 (args ++ (nonDefault q ws).map (writeArg q)) argOf ∧
      (mapSt (writeVal q) g ws).2.slices = g.slices ∧
      ∀ i, hasNum (mapSt (writeVal q) g ws).2 i =
        (hasNum g i || (nonDefault q ws).any fun w => w.idx = i) := by
  induction ws with
  | nil =>
    intro g args post slices hi _ _ _
    simp only [mapSt, nonDefault, List.filter_nil, List.map_nil, List.append_nil]
    exact ⟨trivial, hi, trivial, fun i => by simp⟩
  | cons w ws ih =>
    intro g args post slices hi hnew hnd harg
    simp only [List.map_cons, List.nodup_cons] at hnd
    simp only [mapSt, nonDefault_cons]
    cases hd : canUseDefault q w.field with
    | true =>
      have hw : writeVal q g w = (.default, g) := by simp [writeVal, hd]
      obtain ⟨h1, h2, h3, h4⟩ := ih g args post slices hi
        (fun v hv => hnew v (List.mem_cons_of_mem _ hv)) hnd.2
        (fun v hv => harg v (List.mem_cons_of_mem _ hv))
      simp only [hw, if_true, List.nil_append, List.map_cons]
      refine ⟨?_, h2, h3, h4⟩
      rw [h1]
      simp [writeSpec, hd, VExpr.map]
    | false =>
      have hnone : List.lookup w.idx g.set = none := by
        have := hnew w List.mem_cons_self
        simpa [hasNum] using this
      have hfp : fieldParam g w.idx =
          (.num (g.num + 1), { g with num := g.num + 1, set := (w.idx, g.num + 1) :: g.set }) := by
        simp [fieldParam, hnone]
      have hw2 : (writeVal q g w).2 =
          { g with num := g.num + 1, set := (w.idx, g.num + 1) :: g.set } := by
        simp [writeVal, hd, hfp]
      have hi' := hi.fresh w.idx (writeArg q w) (harg w List.mem_cons_self)
      obtain ⟨h1, h2, h3, h4⟩ := ih _ (args ++ [writeArg q w]) post slices hi'
        (by
          intro v hv
          have hne : v.idx ≠ w.idx := by
            intro e
            exact hnd.1 (by rw [← e]; exact List.mem_map_of_mem hv)
          simp only [hasNum, lookup_cons_ne hne]
          exact hnew v (List.mem_cons_of_mem _ hv)) hnd.2
        (fun v hv => harg v (List.mem_cons_of_mem _ hv))
      simp only [hw2, Bool.false_eq_true, if_false, List.map_cons, List.cons_append, List.nil_append]
      simp only [List.append_assoc, List.cons_append, List.nil_append] at h1 h2
      refine ⟨?_, h2, h3, ?_⟩
      · simp only [List.append_assoc, List.cons_append, h1, List.cons.injEq, and_true]
        have hr := resolve_num args ((nonDefault q ws).map (writeArg q) ++ post) slices
          (writeArg q w) g.num hi.num
        simp only [writeVal, hd, hfp, Bool.false_eq_true, if_false, hq, writeSpec]
        split
        · rw [map_addNullif, map_addNullif, hr]
        · simp only [VExpr.map, hr]
      · intro i
        rw [h4 i]
        simp only [hasNum, List.any_cons]
        by_cases e : i = w.idx
        · subst e
          simp
        · rw [lookup_cons_ne e]
          have : decide (w.idx = i) = false := by simpa using fun h => e h.symm
          rw [this, Bool.false_or]

theorem pkeys_phase (q : Query) (t : TargetInfo) (argOf : Nat → GoExpr) (ps : List FieldWrite) :
    ∀ (g : G) (args post slices : List GoExpr) (first : Bool), Inv g args argOf →
      (∀ p ∈ ps, hasNum g p.idx = t.writes.any fun w => w.idx = p.idx) → (ps.map (·.idx)).Nodup →
      (∀ p ∈ ps, argOf p.idx = pkeyExpr q t p) →
      (pkeyConds false g first ps).1.map
          (resolve (args ++ (ps.filter fun p => !t.writes.any fun w => w.idx = p.idx).map
            (fun w => fieldSel (inputRoot q) w.field) ++ post) slices) =
        (pkeySpec q t first ps).map some ∧
      Inv (pkeyConds false g first ps).2
        (args ++ (ps.filter fun p => !t.writes.any fun w => w.idx = p.idx).map
          (fun w => fieldSel (inputRoot q) w.field)) argOf ∧
      (pkeyConds false g first ps).2.slices = g.slices := by
  induction ps with
  | nil =>
    intro g args post slices first hi _ _ _
    simp only [pkeyConds, pkeySpec, BList.map, List.filter_nil, List.map_nil, List.append_nil]
    exact ⟨trivial, hi, trivial⟩
  | cons p ps ih =>
    intro g args post slices first hi hh hnd harg
    simp only [List.map_cons, List.nodup_cons] at hnd
    simp only [pkeyConds, pkeySpec, BList.map, BExpr.map, Bool.false_eq_true, if_false, List.filter_cons]
    cases hl : List.lookup p.idx g.set with
    | some n =>
      have hfp : fieldParam g p.idx = (.num n, g) := by simp [fieldParam, hl]
      have hany : (t.writes.any fun w => decide (w.idx = p.idx)) = true := by
        rw [← hh p List.mem_cons_self]; simp [hasNum, hl]
      obtain ⟨h1, h2, h3⟩ := ih g args post slices false hi
        (fun v hv => hh v (List.mem_cons_of_mem _ hv)) hnd.2
        (fun v hv => harg v (List.mem_cons_of_mem _ hv))
      simp only [hfp, hany, Bool.not_true, Bool.false_eq_true, if_false]
      refine ⟨?_, h2, h3⟩
      have hr := resolve_append ((ps.filter fun p => !t.writes.any fun w => decide (w.idx = p.idx)).map
        (fun w => fieldSel (inputRoot q) w.field) ++ post) slices (hi.set p.idx n hl)
      rw [List.nil_append] at hr
      rw [h1]
      simp only [VExpr.map, List.append_assoc, hr, harg p List.mem_cons_self]
    | none =>
      have hfp : fieldParam g p.idx =
          (.num (g.num + 1), { g with num := g.num + 1, set := (p.idx, g.num + 1) :: g.set }) := by
        simp [fieldParam, hl]
      have hany : (t.writes.any fun w => decide (w.idx = p.idx)) = false := by
        rw [← hh p List.mem_cons_self]; simp [hasNum, hl]
      have hpk : pkeyExpr q t p = fieldSel (inputRoot q) p.field := by
        have : t.writes.find? (fun v => decide (v.idx = p.idx)) = none := by
          rw [List.find?_eq_none]
          intro x hx
          rw [List.any_eq_false] at hany
          exact hany x hx
        simp [pkeyExpr, this]
      have hi' := hi.fresh p.idx (fieldSel (inputRoot q) p.field)
        ((harg p List.mem_cons_self).trans hpk)
      obtain ⟨h1, h2, h3⟩ := ih _ (args ++ [fieldSel (inputRoot q) p.field]) post slices false hi'
        (by
          intro v hv
          have hne : v.idx ≠ p.idx := by
            intro e
            exact hnd.1 (by rw [← e]; exact List.mem_map_of_mem hv)
          simp only [hasNum, lookup_cons_ne hne]
          exact hh v (List.mem_cons_of_mem _ hv)) hnd.2
        (fun v hv => harg v (List.mem_cons_of_mem _ hv))
      simp only [hfp, hany, Bool.not_false, if_true, List.map_cons]
      simp only [List.append_assoc, List.cons_append, List.nil_append] at h1 h2
      refine ⟨?_, ?_, h3⟩
      · have hr := resolve_num args ((ps.filter fun p => !t.writes.any fun w => decide (w.idx = p.idx)).map
          (fun w => fieldSel (inputRoot q) w.field) ++ post) slices
          (fieldSel (inputRoot q) p.field) g.num hi.num
        simp only [List.append_assoc, List.cons_append, h1, VExpr.map, hr, hpk]
      · exact h2

/-! ### Limit and offset -/

theorem limitValue_phase (g : G) (l : LimitField) (pre post slices : List GoExpr)
    (hn : g.num = pre.length) :
    (limitValue g l).1.map (resolve (pre ++ limitArgs (some l) ++ post) slices) =
        (limitValSpec l).map some ∧
      (limitValue g l).2 = g.add (limitArgs (some l)).length [] := by
  by_cases h : l.name.length > 0
  · have h' : l.name.length ≠ 0 := by omega
    simp only [limitValue, h, if_true, limitArgs, h', if_false, freshParam, LimitVal.map, limitValSpec,
      List.append_assoc, List.cons_append, List.nil_append]
    rw [resolve_num _ _ _ _ _ hn]
    exact ⟨rfl, by simp [G.add]⟩
  · have h' : l.name.length = 0 := by omega
    have h0 : ¬ (0 : Nat) > 0 := by omega
    simp only [limitValue, h', h0, if_false, limitArgs, if_true, limitValSpec, List.length_nil,
      G.add_zero, and_true]
    split <;> rfl

theorem limit_phase (q : Query) (g : G) (pre post slices : List GoExpr) (hn : g.num = pre.length) :
    (buildLimit q g).1.map (resolve (pre ++ limitArgs q.limit ++ post) slices) =
        (limitSpec q).map some ∧
      (buildLimit q g).2 = g.add (limitArgs q.limit).length [] := by
  unfold buildLimit limitSpec
  cases q.limit with
  | none =>
    simp only [limitArgs, List.length_nil, G.add_zero, and_true]
    split <;> rfl
  | some l => exact limitValue_phase g l pre post slices hn

theorem offset_phase (q : Query) (g : G) (pre post slices : List GoExpr) (hn : g.num = pre.length) :
    (buildOffset q g).1.map (resolve (pre ++ limitArgs q.offset ++ post) slices) =
        (offsetSpec q).map some ∧
      (buildOffset q g).2 = g.add (limitArgs q.offset).length [] := by
  unfold buildOffset offsetSpec
  cases q.offset with
  | none =>
    simp only [limitArgs, List.length_nil, G.add_zero, and_true]
    rfl
  | some l => exact limitValue_phase g l pre post slices hn

end Verif.Generator
