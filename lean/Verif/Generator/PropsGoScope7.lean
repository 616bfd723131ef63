import Verif.Generator.PropsGoScope6

/- C106: the query string is a constant only if it may be. -/
namespace Verif.Generator.Scoped
open Verif.Analysis Verif.Postgres

/-- **C106** If the query string is declared as a constant, its value has no IN lists, so no variables and no calls, and
the method does not assign to it: all that is printed for it is the declaration. -/
theorem C106_const {q : Query} {t : TargetInfo} {c : Code} (h : generate q t = some c) (hc : Print.canDeclareConst q c = true) :
    slotVars c.sql.stmt.slots = [] ∧ slotPkgs c.sql.stmt.slots = [] ∧ Print.queryStringText q c = Print.declText q c ∧
      ∀ rest, queryStringB q c rest = declB q c rest := by
  simp only [Print.canDeclareConst, Bool.and_eq_true, decide_eq_true_eq, Bool.not_eq_true', Option.isNone_iff_eq_none] at hc
  obtain ⟨⟨hf, hs⟩, hb⟩ := hc
  have hno : ∀ k, .slice k ∉ c.sql.stmt.slots := by
    intro k hk
    have := code_slots h k (.inl hk)
    omega
  have hp : ∀ l : List Slot, (∀ k, .slice k ∉ l) → slotPkgs l = [] := by
    intro l
    induction l with
    | nil => intro _; rfl
    | cons a l ih =>
      intro hl
      cases a with
      | num k => exact ih fun j hj => hl j (List.mem_cons_of_mem _ hj)
      | slice k => exact absurd List.mem_cons_self (hl k)
  refine ⟨no_slotVars hno, hp _ hno, ?_, ?_⟩
  · simp [Print.queryStringText, hf, hs, hb]
  · intro rest
    simp [queryStringB, hf, hs, hb]

/-- **C106** Otherwise it is declared as a variable. -/
theorem C106_var {q : Query} {c : Code} (hc : Print.canDeclareConst q c = false) :
    ∃ x, Print.declText q c = b!"var queryString = " ++ x := by
  refine ⟨Print.rawText (Print.stmtText Print.slotText c.sql.stmt) ++ b!" // `" ++ b!"\n", ?_⟩
  rw [Print.declText, hc]
  simp [Print.line]

/-- A select by key has a constant query string, a select by a list of keys not. -/
theorem C106_example_const :
    (∃ q t c, Built shopCat q t ∧ generate q t = some c ∧ Print.canDeclareConst q c = true) ∧
    ∃ q t c, Built shopCat q t ∧ generate q t = some c ∧ Print.canDeclareConst q c = false := by
  constructor
  · exact code_of (env := env0) (cat := shopCat) (n := b!"SelectUser")
      (fs := [relFld userTy, whereOf [sqlFld b!"Id" [b!"u.id"] Analysis.intTy]])
      (P := fun q _ c => Print.canDeclareConst q c) (by decide +kernel)
  · obtain ⟨q, t, c, hb, hc, hp⟩ := code_of (env := env0) (cat := shopCat) (n := b!"SelectUsers")
      (fs := [relFld (.slice userTy), whereOf [sqlFld b!"Ids" [b!"u.id isin"] (.slice Analysis.intTy)]])
      (P := fun q _ c => !Print.canDeclareConst q c) (by decide +kernel)
    exact ⟨q, t, c, hb, hc, by simpa using hp⟩

end Verif.Generator.Scoped
