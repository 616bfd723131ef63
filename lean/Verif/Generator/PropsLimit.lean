import Verif.Generator.PropsSlices

/- C61: the default of a limit or offset field. -/
namespace Verif.Generator
open Verif.Analysis Verif.Postgres

/-- The value meant by a limit or offset field: its own, or that of its tag if it is zero. -/
def meant (l : LimitField) (w : World) : Val :=
  if w.field (.sel recv l.name) = .int 0 ∧ l.value > 0 then .int l.value else w.field (.sel recv l.name)

theorem fallbackOne_self {l : LimitField} (hn : l.name ≠ []) (w : World) :
    fallbackOne (some l) w.field (.sel recv l.name) = meant l w := by
  have : l.name.length > 0 := List.length_pos_iff.2 hn
  unfold fallbackOne meant
  by_cases h0 : w.field (.sel recv l.name) = .int 0 <;> by_cases hv : l.value > 0 <;>
    simp [h0, hv, this]

theorem fallbackOne_other {l : Option LimitField} (field : GoExpr → Val) (x : GoExpr)
    (h : ∀ k, l = some k → x ≠ .sel recv k.name) : fallbackOne l field x = field x := by
  unfold fallbackOne
  cases l with
  | none => rfl
  | some k =>
    have := h k rfl
    simp only
    by_cases hc : k.value > 0 ∧ k.name.length > 0 ∧ field (.sel recv k.name) = .int 0
    · rw [if_pos hc, if_neg this]
    · rw [if_neg hc]

/-- **C61** A limit field that is zero stands for the number in its tag, and so does an offset field,
unless there is an IN list or a filter. -/
theorem C61_default {cat : Catalog} {q : Query} {t : TargetInfo} {c : Code} (h : Plain cat q t)
    (hc : generate q t = some c) (hs : c.g.slices = []) (hf : q.filter = none) (hk : q.kind = .select)
    (hne : ∀ l o, q.limit = some l → q.offset = some o → l.name ≠ o.name) (w : World) :
    ∃ args, sentArgs q w c = some args ∧
      (∀ l, q.limit = some l → l.name ≠ [] → ∃ n lim off cs jn wh ord,
        c.sql.stmt = .select cs q.rel.id jn wh ord lim off ∧ lim = .param (.num n) ∧ 1 ≤ n ∧
        args[(n - 1).toNat]? = some (meant l w)) ∧
      (∀ o, q.offset = some o → o.name ≠ [] → ∃ n lim off cs jn wh ord,
        c.sql.stmt = .select cs q.rel.id jn wh ord lim off ∧ off = .param (.num n) ∧ 1 ≤ n ∧
        args[(n - 1).toNat]? = some (meant o w)) := by
  have hpass : passesParams q c = false := by
    simp [passesParams, hs, hf, h.one]
  have hsent : sentArgs q w c = some (c.args.map (eval (fallback q w).field)) := by
    simp [sentArgs, buildParams, h.one, hs, hf, hpass]
  have hsay := C39_select h hk hc
  obtain ⟨js, g1, w', g2, _, _, hst, _⟩ := generate_split hc
  simp only [buildStmt, hk, Option.some.injEq] at hst
  have hmap := congrArg SQL.stmt hsay
  rw [← hst] at hmap
  simp only [SQL.map, Stmt.map, Stmt.select.injEq] at hmap
  obtain ⟨_, _, _, _, _, hlim, hoff⟩ := hmap
  have stmt_eq : c.sql.stmt = .select (outputVals t) q.rel.id js w' (buildOrder q) (buildLimit q g2).1
      (buildOffset q (buildLimit q g2).2).1 := by rw [← hst]
  have find : ∀ (x : LimitVal Slot) (e : GoExpr),
      x.map (resolve c.args c.g.slices) = (LimitVal.param e).map some → e ≠ .sel recv [] →
      (∃ m, x = .param (.num m)) → ∃ n, x = .param (.num n) ∧ 1 ≤ n ∧ c.args[(n - 1).toNat]? = some e := by
    rintro x e hx _ ⟨m, rfl⟩
    refine ⟨m, rfl, ?_⟩
    simp only [LimitVal.map, LimitVal.param.injEq, resolve] at hx
    by_cases h1 : 1 ≤ m
    · rw [if_pos h1] at hx; exact ⟨h1, hx⟩
    · rw [if_neg h1] at hx; cases hx
  have hval : ∀ (g : G) (l : LimitField), l.name ≠ [] → ∃ m, (limitValue g l).1 = .param (.num m) := by
    intro g l hn
    have : l.name.length > 0 := List.length_pos_iff.2 hn
    exact ⟨g.num + 1, by simp [limitValue, this, freshParam]⟩
  refine ⟨_, hsent, ?_, ?_⟩
  · intro l hl hn
    rw [(C39_limits q).1 l hl hn] at hlim
    obtain ⟨n, h1, h2, h3⟩ := find _ _ hlim (by simp [recv, hn]) (by
      obtain ⟨m, hm⟩ := hval g2 l hn
      exact ⟨m, by simp only [buildLimit, hl]; exact hm⟩)
    refine ⟨n, _, _, _, _, _, _, stmt_eq, h1, h2, ?_⟩
    rw [List.getElem?_map, h3]
    simp only [Option.map_some, Option.some.injEq, eval, fallback]
    rw [fallbackOne_other]
    · rw [hl]; exact fallbackOne_self hn w
    · intro o ho
      simp only [recv, ne_eq, GoExpr.sel.injEq, true_and]
      exact hne l o hl ho
  · intro o ho hn
    rw [(C39_limits q).2.2.2.2.1 o ho hn] at hoff
    obtain ⟨n, h1, h2, h3⟩ := find _ _ hoff (by simp [recv, hn]) (by
      obtain ⟨m, hm⟩ := hval (buildLimit q g2).2 o hn
      exact ⟨m, by simp only [buildOffset, ho]; exact hm⟩)
    refine ⟨n, _, _, _, _, _, _, stmt_eq, h1, h2, ?_⟩
    rw [List.getElem?_map, h3]
    simp only [Option.map_some, Option.some.injEq, eval, fallback]
    rw [ho, show GoExpr.sel (GoExpr.ident b!"q") o.name = .sel recv o.name from rfl]
    have hself := fallbackOne_self hn { w with field := fallbackOne q.limit w.field }
    rw [show fallbackOne (some o) (fallbackOne q.limit w.field) (.sel recv o.name) =
      meant o { w with field := fallbackOne q.limit w.field } from hself]
    have : fallbackOne q.limit w.field (.sel recv o.name) = w.field (.sel recv o.name) := by
      refine fallbackOne_other _ _ ?_
      intro l hl
      simp only [recv, ne_eq, GoExpr.sel.injEq, true_and]
      exact fun e => hne l o hl ho e.symm
    simp only [meant, this]

/-- A query with a limit whose default is 20. -/
def limitFlds (wh : List Analysis.Field) : List Analysis.Field :=
  [relFld (.slice userTy), whereOf wh, sqlFld b!"Limit" [b!"20"] Analysis.intTy]

/-- The hypotheses hold for a query without IN list, and LIMIT 20 is sent if the field is zero. -/
theorem C61_example : ∃ q t c, Plain shopCat q t ∧ generate q t = some c ∧ c.g.slices = [] ∧
    q.filter = none ∧ q.kind = .select ∧ q.offset.isNone = true ∧
    sentArgs q { field := fun _ => .int 0 } c = some [.int 0, .int 20] := by
  obtain ⟨q, t, c, hb, hc, hp⟩ := code_of (env := env0) (cat := shopCat) (n := b!"SelectUsers")
    (fs := limitFlds [sqlFld b!"Age" [b!"u.age >"] Analysis.intTy])
    (P := fun q _ c => decide (isInsertOrUpdateSlice q = false ∧ inUsesFields q = true ∧
      c.g.slices = [] ∧ q.filter = none ∧ q.kind = .select ∧ q.offset.isNone = true ∧
      sentArgs q { field := fun _ => .int 0 } c = some [.int 0, .int 20]))
    (by decide +kernel)
  obtain ⟨h1, h2, h3⟩ := of_decide_eq_true hp
  exact ⟨q, t, c, { toBuilt := hb, one := h1, fields := h2
                    keys := fun h => by simp [isUpdateWithPKeys, h3.2.2.1] at h }, hc, h3⟩

/-- **C61** With an IN list the default comes too late: the arguments already hold the zero, and the
statement is run with LIMIT 0. -/
theorem C61_not_with_in : ∃ q t c, Plain shopCat q t ∧ generate q t = some c ∧
    c.slots = [.slice 1, .num 1] ∧ (q.limit.any fun l => decide (l.value = 20)) = true ∧
    sentArgs q { field := fun _ => .int 0, slice := fun _ => [.int 7] } c = some [.int 0, .int 7] := by
  obtain ⟨q, t, c, hb, hc, hp⟩ := code_of (env := env0) (cat := shopCat) (n := b!"SelectUsers")
    (fs := limitFlds [sqlFld b!"Ids" [b!"u.id isin"] (.slice Analysis.intTy)])
    (P := fun q _ c => decide (isInsertOrUpdateSlice q = false ∧ inUsesFields q = true ∧ q.kind = .select ∧
      c.slots = [.slice 1, .num 1] ∧ (q.limit.any fun l => decide (l.value = 20)) = true ∧
      sentArgs q { field := fun _ => .int 0, slice := fun _ => [.int 7] } c = some [.int 0, .int 7]))
    (by decide +kernel)
  obtain ⟨h1, h2, h3, h4⟩ := of_decide_eq_true hp
  exact ⟨q, t, c, { toBuilt := hb, one := h1, fields := h2
                    keys := fun h => by simp [isUpdateWithPKeys, h3] at h }, hc, h4⟩

end Verif.Generator
