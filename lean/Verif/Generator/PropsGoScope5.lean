import Verif.Generator.PropsGoScope4

/- Property C106: the packages that a method uses. -/
namespace Verif.Generator.Scoped
open Verif.Analysis Verif.Postgres Verif.Generator.Print GoBlk

namespace GoBlk

/-- The packages that are used. -/
def pkgs : GoBlk → List Bytes
  | nil => []
  | decl _ _ _ ps _ rest => ps ++ rest.pkgs
  | stmt _ ps _ rest => ps ++ rest.pkgs
  | block _ _ ps _ body rest => ps ++ body.pkgs ++ rest.pkgs
  | ret _ ps _ rest => ps ++ rest.pkgs

/-- The variables that are declared, in the blocks inside as well. -/
def decls : GoBlk → List Bytes
  | nil => []
  | decl _ ns _ _ _ rest => ns ++ rest.decls
  | stmt _ _ _ rest => rest.decls
  | block ns _ _ _ body rest => ns ++ body.decls ++ rest.decls
  | ret _ _ _ rest => rest.decls

end GoBlk

theorem visible_of (b : GoBlk) (vis : List Bytes) (h : ∀ p ∈ b.pkgs, p ∉ vis ∧ p ∉ b.decls) : b.visible vis = true := by
  induction b generalizing vis with
  | nil => rfl
  | decl short ns us ps x rest ih =>
    simp only [pkgs, decls, List.mem_append] at h
    simp only [visible, Bool.and_eq_true, List.all_eq_true]
    refine ⟨fun p hp => by simpa using (h p (.inl hp)).1, ih _ ?_⟩
    intro p hp
    have := h p (.inr hp)
    grind
  | stmt us ps x rest ih =>
    simp only [pkgs, decls, List.mem_append] at h
    simp only [visible, Bool.and_eq_true, List.all_eq_true]
    exact ⟨fun p hp => by simpa using (h p (.inl hp)).1, ih _ fun p hp => h p (.inr hp)⟩
  | block ns us ps x body rest ih1 ih2 =>
    simp only [pkgs, decls, List.mem_append] at h
    simp only [visible, Bool.and_eq_true, List.all_eq_true]
    refine ⟨⟨fun p hp => by simpa using (h p (.inl (.inl hp))).1, ih1 _ ?_⟩, ih2 _ ?_⟩
    · intro p hp
      have := h p (.inl (.inr hp))
      grind
    · intro p hp
      have := h p (.inr hp)
      grind
  | ret us ps x rest ih =>
    simp only [pkgs, decls, List.mem_append] at h
    simp only [visible, Bool.and_eq_true, List.all_eq_true]
    exact ⟨fun p hp => by simpa using (h p (.inl hp)).1, ih _ fun p hp => h p (.inr hp)⟩

/-- The names of the parameters and variables of methods, except those that are numbered. -/
def localNames : List Bytes :=
  [b!"q", b!"c", b!"ctx", b!"queryString", b!"params", b!"pos", b!"nstatic", b!"filterString", b!"row", b!"rows", b!"res",
   b!"err", b!"i64", b!"i", b!"v", b!"_"]

def LocalName (x : Bytes) : Prop := x ∈ localNames ∨ ∃ k, x = lenVar k ∨ x = posVar k

/-- The packages of the types that are named in the method: that of the records and those of the structs that pointers
inside them are set to. -/
def typeNames (s : List Imp) (q : Query) (t : TargetInfo) : List Bytes :=
  typePkgs s (outputType q).base.isImported (outputType q).base.pkgPath ++ (fieldInits q t).flatMap (ptrPkgs s)

def UsedPkg (s : List Imp) (q : Query) (t : TargetInfo) (p : Bytes) : Prop :=
  p = b!"gosql" ∨ p = b!"pgsql" ∨ p ∈ typeNames s q t

structure Tame (s : List Imp) (q : Query) (t : TargetInfo) (b : GoBlk) : Prop where
  decls : ∀ x ∈ b.decls, LocalName x
  pkgs : ∀ p ∈ b.pkgs, UsedPkg s q t p

section
variable {conf : PrintConf} {s : List Imp} {q : Query} {t : TargetInfo} {c : Code} {r b : GoBlk}

theorem Tame.nil : Tame s q t .nil := ⟨by simp [GoBlk.decls], by simp [GoBlk.pkgs]⟩

theorem Tame.decl {short : Bool} {ns us ps : List Bytes} {x : Bytes} (h : Tame s q t r) (hn : ∀ n ∈ ns, LocalName n)
    (hp : ∀ p ∈ ps, UsedPkg s q t p) : Tame s q t (.decl short ns us ps x r) where
  decls y hy := by
    rcases List.mem_append.1 hy with hy | hy
    · exact hn y hy
    · exact h.decls y hy
  pkgs p hy := by
    rcases List.mem_append.1 hy with hy | hy
    · exact hp p hy
    · exact h.pkgs p hy

theorem Tame.stmt {us ps : List Bytes} {x : Bytes} (h : Tame s q t r) (hp : ∀ p ∈ ps, UsedPkg s q t p) :
    Tame s q t (.stmt us ps x r) where
  decls := h.decls
  pkgs p hy := by
    rcases List.mem_append.1 hy with hy | hy
    · exact hp p hy
    · exact h.pkgs p hy

theorem Tame.ret {us ps : List Bytes} {x : Bytes} (h : Tame s q t r) (hp : ∀ p ∈ ps, UsedPkg s q t p) :
    Tame s q t (.ret us ps x r) where
  decls := h.decls
  pkgs p hy := by
    rcases List.mem_append.1 hy with hy | hy
    · exact hp p hy
    · exact h.pkgs p hy

theorem Tame.block {ns us ps : List Bytes} {x : Bytes} (hb : Tame s q t b) (h : Tame s q t r) (hn : ∀ n ∈ ns, LocalName n)
    (hp : ∀ p ∈ ps, UsedPkg s q t p) : Tame s q t (.block ns us ps x b r) where
  decls y hy := by
    simp only [GoBlk.decls, List.mem_append] at hy
    rcases hy with (hy | hy) | hy
    · exact hn y hy
    · exact hb.decls y hy
    · exact h.decls y hy
  pkgs p hy := by
    simp only [GoBlk.pkgs, List.mem_append] at hy
    rcases hy with (hy | hy) | hy
    · exact hp p hy
    · exact hb.pkgs p hy
    · exact h.pkgs p hy

theorem names_of {ns : List Bytes} (h : (ns.all fun n => localNames.contains n) = true) : ∀ n ∈ ns, LocalName n := by
  intro n hn
  have := List.all_eq_true.1 h n hn
  exact .inl (by simpa using this)

theorem no_pkgs : ∀ p ∈ ([] : List Bytes), UsedPkg s q t p := by simp

theorem slotPkgs_used (l : List Slot) : ∀ p ∈ slotPkgs l, UsedPkg s q t p := by
  induction l with
  | nil => simp [slotPkgs]
  | cons x l ih =>
    cases x with
    | num n => exact ih
    | slice k =>
      intro p hp
      simp only [slotPkgs, List.mem_cons] at hp
      rcases hp with hp | hp
      · exact .inl hp
      · exact ih p hp

theorem exprPkgs_used (x : GoExpr) : ∀ p ∈ exprPkgs x, UsedPkg s q t p := by
  induction x with
  | ident n => simp [exprPkgs]
  | sel x n ih => exact ih
  | index x i ih1 ih2 =>
    intro p hp
    simp only [exprPkgs, List.mem_append] at hp
    rcases hp with hp | hp
    · exact ih1 p hp
    · exact ih2 p hp
  | addr x ih => exact ih
  | conv f x ih =>
    intro p hp
    simp only [exprPkgs, List.mem_cons] at hp
    rcases hp with hp | hp
    · exact .inr (.inl hp)
    · exact ih p hp

theorem exprsPkgs_used (l : List GoExpr) : ∀ p ∈ l.flatMap exprPkgs, UsedPkg s q t p := by
  intro p hp
  obtain ⟨x, _, hp⟩ := List.mem_flatMap.1 hp
  exact exprPkgs_used x p hp

theorem inputPkgs_used : ∀ p ∈ inputPkgs q c, UsedPkg s q t p := by
  intro p hp
  unfold inputPkgs at hp
  split at hp
  · cases hp
  · exact exprsPkgs_used _ p hp

theorem opPkgs_used (o : Op) : ∀ p ∈ opPkgs q t o, UsedPkg s q t p := by
  intro p hp
  cases o <;> simp only [opPkgs, List.not_mem_nil, outPkgs] at hp <;> exact exprsPkgs_used _ p hp

theorem errPkgs_used (e : ErrExpr) : ∀ p ∈ errPkgs q t e, UsedPkg s q t p := by
  intro p hp
  cases e <;> simp only [errPkgs, List.not_mem_nil] at hp
  exact opPkgs_used _ p hp

theorem retB_tame (e : Ret) (h : Tame s q t r) : Tame s q t (retB q t e r) := by
  refine h.ret ?_
  intro p hp
  cases e <;> simp only [retPkgs] at hp
  · exact errPkgs_used _ p hp
  · exact errPkgs_used _ p hp
  · simp only [List.mem_singleton] at hp; exact .inl hp

theorem declB_tame (h : Tame s q t r) : Tame s q t (declB q c r) := h.decl (names_of (by decide)) (slotPkgs_used _)

theorem tailB_tame (h : Tame s q t r) : Tame s q t (tailB c r) := by
  unfold tailB
  split
  · exact h
  · exact h.stmt (slotPkgs_used _)

theorem assignsB_tame {vars : List Bytes} {pre : Bytes} {args : List GoExpr} (h : Tame s q t r) :
    Tame s q t (assignsB vars pre args r) := by
  unfold assignsB
  split
  · exact h
  · exact h.stmt (exprsPkgs_used _)

theorem rowB_tame : Tame s q t (rowB c) := by
  refine Tame.nil.stmt ?_
  intro p hp
  split at hp
  · simp only [List.mem_singleton] at hp; exact .inl hp
  · cases hp

theorem batchB_tame (h : Tame s q t r) : Tame s q t (batchB q c r) := by
  simp only [batchB]
  refine declB_tame ?_
  have hr : ∀ x, Tame s q t (.stmt [b!"queryString"] [] x (tailB c r)) := fun x => (tailB_tame h).stmt no_pkgs
  split
  · exact Tame.decl (Tame.block (Tame.decl (assignsB_tame rowB_tame) (names_of (by decide)) no_pkgs) (hr _) (names_of (by decide))
      no_pkgs) (names_of (by decide)) no_pkgs
  · exact Tame.block rowB_tame (hr _) (by simp) no_pkgs

theorem sliceVarsB_tame (xs : List GoExpr) (k : Nat) (h : Tame s q t r) : Tame s q t (sliceVarsB k xs r) := by
  induction xs generalizing k with
  | nil => exact h
  | cons x xs ih =>
    refine Tame.decl (Tame.decl (ih (k + 1)) ?_ no_pkgs) ?_ (exprPkgs_used x)
    · intro n hn; simp only [List.mem_singleton] at hn; exact .inr ⟨k, .inr hn⟩
    · intro n hn; simp only [List.mem_singleton] at hn; exact .inr ⟨k, .inl hn⟩

theorem sliceLoopsB_tame (xs : List GoExpr) (k : Nat) (h : Tame s q t r) : Tame s q t (sliceLoopsB k xs r) := by
  induction xs generalizing k with
  | nil => exact h
  | cons x xs ih => exact Tame.block (Tame.nil.stmt (exprPkgs_used x)) (ih (k + 1)) (names_of (by decide)) no_pkgs

theorem slicesB_tame (h : Tame s q t r) : Tame s q t (slicesB q c r) :=
  Tame.decl (sliceVarsB_tame _ _ (Tame.stmt (declB_tame (Tame.decl (assignsB_tame (sliceLoopsB_tame _ _ h))
    (names_of (by decide)) no_pkgs)) no_pkgs)) (names_of (by decide)) no_pkgs

theorem queryStringB_tame (h : Tame s q t r) : Tame s q t (queryStringB q c r) := by
  unfold queryStringB
  split
  · exact batchB_tame h
  · split
    · exact slicesB_tame h
    · split
      · exact declB_tame (Tame.decl (Tame.stmt (tailB_tame h) no_pkgs) (names_of (by decide)) no_pkgs)
      · exact declB_tame h

theorem ptrsB_tame (h : Tame s q t r) : Tame s q t (ptrsB s q (fieldInits q t) r) := by
  unfold ptrsB
  split
  · exact h
  · exact h.stmt fun p hp => .inr (.inr (List.mem_append_right _ hp))

theorem outputVar_names (q : Query) : ∀ n ∈ idents (outputVar q), LocalName n := by
  unfold outputVar
  split
  · exact names_of (ns := [b!"q", b!"i"]) (by decide)
  · split
    · exact names_of (ns := [b!"v"]) (by decide)
    · exact names_of (ns := [b!"q"]) (by decide)

theorem initB_tame (h : Tame s q t r) : Tame s q t (initB s q t r) := by
  have hp : ∀ p ∈ typePkgs s (outputType q).base.isImported (outputType q).base.pkgPath, UsedPkg s q t p :=
    fun p hp => .inr (.inr (List.mem_append_left _ hp))
  unfold initB
  simp only
  split
  · exact ptrsB_tame h
  · exact (ptrsB_tame h).stmt hp
  · exact (ptrsB_tame h).decl (outputVar_names q) hp
  · exact (ptrsB_tame h).decl (names_of (by decide)) hp

theorem callB_tame (o : Op) (h : Tame s q t r) : Tame s q t (callB conf q t c o r) := by
  unfold callB
  split
  · refine h.decl ?_ inputPkgs_used
    split <;> exact names_of (by decide)
  · exact h.decl (names_of (by decide)) no_pkgs
  · exact h.decl (names_of (by decide)) inputPkgs_used
  · exact h.decl (names_of (by decide)) (opPkgs_used _)

theorem instrB_tame {init : GoBlk → GoBlk} (hi : ∀ b, Tame s q t b → Tame s q t (init b)) (i : Instr) (h : Tame s q t r) :
    Tame s q t (instrB conf init q t c i r) := by
  cases i with
  | call o => exact callB_tame o h
  | ifErr e => exact Tame.block (retB_tame e .nil) h (by simp) no_pkgs
  | ifInit e e' => exact Tame.block (Tame.stmt (retB_tame e' .nil) no_pkgs) h (names_of (by decide)) (errPkgs_used e)
  | deferClose => exact h.stmt no_pkgs
  | init => exact hi r h
  | afterScan => exact h.stmt no_pkgs
  | keep =>
    simp only [instrB]
    split
    · exact h.stmt no_pkgs
    · exact h.stmt no_pkgs
  | setAffected f k => exact h.stmt no_pkgs
  | ret e => exact retB_tame e h

theorem outerInitB_tame (h : Tame s q t r) : Tame s q t (outerInitB s q t r) := by
  unfold outerInitB
  split
  · split
    · exact h.decl (names_of (by decide)) no_pkgs
    · exact h
  · exact initB_tame h

theorem instrsB_tame (l : List Instr) : Tame s q t (instrsB conf (initB s q t) q t c l .nil) := by
  induction l with
  | nil => exact .nil
  | cons i l ih => exact instrB_tame (fun _ h => initB_tame h) i ih

theorem goStmts_tame (l : List GoStmt) : Tame s q t (l.foldr (goStmtB conf s q t c) .nil) := by
  induction l with
  | nil => exact .nil
  | cons x l ih =>
    cases x with
    | one i => exact instrB_tame (fun _ h => outerInitB_tame h) i ih
    | loop b => exact Tame.block (instrsB_tame b) ih (by simp) no_pkgs

theorem fallbackB_tame (l : Option LimitField) (h : Tame s q t r) : Tame s q t (fallbackB l r) := by
  unfold fallbackB
  split
  · exact h
  · split
    · exact h.stmt no_pkgs
    · exact h

theorem methodB_tame : Tame s q t (methodB conf s q t c) := by
  refine queryStringB_tame (fallbackB_tame _ (fallbackB_tame _ ?_))
  have h2 : Tame s q t (queryRowB conf q c (resultB conf s q t c)) := by
    unfold queryRowB
    split
    · exact Tame.decl (goStmts_tame _) (names_of (by decide)) inputPkgs_used
    · exact goStmts_tame _
  unfold filterParamsB
  split
  · exact h2.stmt (exprsPkgs_used _)
  · exact h2

end

/-- **C106** The packages that a method uses are those of the library and those of the types of the records. -/
theorem C106_packages (conf : PrintConf) (s : List Imp) (q : Query) (t : TargetInfo) (c : Code) :
    ∀ p ∈ (methodB conf s q t c).pkgs, UsedPkg s q t p := methodB_tame.pkgs

theorem gosql_free : ¬ LocalName b!"gosql" := by
  rintro (h | ⟨k, h | h⟩)
  · revert h; decide
  · simp [lenVar] at h
  · simp [posVar] at h

theorem pgsql_free : ¬ LocalName b!"pgsql" := by
  rintro (h | ⟨k, h | h⟩)
  · revert h; decide
  · simp [lenVar] at h
  · simp [posVar] at h

theorem params_local {conf : PrintConf} {x : Bytes} (h : x ∈ methodParams conf) : LocalName x := by
  unfold methodParams at h
  split at h <;> simp at h <;> rcases h with rfl | rfl | rfl <;> exact .inl (by decide)

/-- **C106** None of them is hidden by a variable, unless the package of a type has the name of one. -/
theorem C106_visible (conf : PrintConf) (s : List Imp) (q : Query) (t : TargetInfo) (c : Code)
    (h : ∀ p ∈ typeNames s q t, ¬ LocalName p) : (methodB conf s q t c).visible (methodParams conf) = true := by
  refine visible_of _ _ ?_
  have hm := methodB_tame (conf := conf) (s := s) (q := q) (t := t) (c := c)
  intro p hp
  have hl : ¬ LocalName p := by
    rcases hm.pkgs p hp with rfl | rfl | hp
    · exact gosql_free
    · exact pgsql_free
    · exact h p hp
  exact ⟨fun hx => hl (params_local hx), fun hx => hl (hm.decls p hx)⟩

end Verif.Generator.Scoped
