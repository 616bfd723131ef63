import Verif.Generator.PropsGoScope5
import Verif.Generator.PropsOutput2
import Verif.Generator.PropsQuals2
import Verif.Generator.PropsGram10

/- Property C106: predeclared names, examples and exceptions. -/
namespace Verif.Generator.Scoped
open Verif.Analysis Verif.Postgres Verif.Generator.Print GoBlk

/-- The predeclared names in the text of methods: functions, nil, and the types of RowsAffected fields. -/
def predeclared : List Bytes :=
  [b!"new", b!"len", b!"append", b!"make", b!"nil", b!"error", b!"int", b!"int8", b!"int16", b!"int32", b!"int64",
   b!"uint", b!"uint8", b!"uint16", b!"uint32", b!"uint64", b!"float32", b!"float64"]

theorem itoa_ne_nil (k : Nat) : itoa k ≠ [] := by
  simp only [itoa]
  exact Nat.toDigits_ne_nil

/-- **C106** No variable has the name of one of the functions and types that the methods use. -/
theorem C106_predeclared (conf : PrintConf) (s : List Imp) (q : Query) (t : TargetInfo) (c : Code) :
    ∀ x ∈ (methodB conf s q t c).decls ++ methodParams conf, x ∉ predeclared := by
  intro x hx hp
  have hl : LocalName x := by
    rcases List.mem_append.1 hx with hx | hx
    · exact methodB_tame.decls x hx
    · exact params_local hx
  rcases hl with hl | ⟨k, hl | hl⟩
  · have : (localNames.all fun y => !predeclared.contains y) = true := by decide
    have := List.all_eq_true.1 this x hl
    simp [hp] at this
  · have hp : lenVar k ∈ predeclared := hl ▸ hp
    have hn := itoa_ne_nil k
    simp [predeclared, lenVar, hn] at hp
  · have hp : posVar k ∈ predeclared := hl ▸ hp
    simp [predeclared, posVar] at hp

/-- All that C106 asks of a method. -/
def wellScoped (conf : PrintConf) (s : List Imp) (q : Query) (t : TargetInfo) (c : Code) : Bool :=
  let b := methodB conf s q t c
  (b.free.all fun x => (methodParams conf).contains x) && b.fine (methodParams conf) && b.visible (methodParams conf) && b.ends

/-- The theorems are not vacuous: a select of imported records with an IN list and an info handler. -/
theorem C106_example : ∃ q t c, Built shopCat q t ∧ generate q t = some c ∧ inUsesFields q = true ∧ callOf q = .rows ∧
    t.reads.length = 2 ∧ (outputType q).isArray = false ∧
    (methodB { withContext := true } [⟨b!"x/models", b!"models", false, 0⟩] q t c).decls =
      [b!"nstatic", b!"len1", b!"pos1", b!"queryString", b!"params", b!"i", b!"rows", b!"err", b!"v", b!"err", b!"err"] ∧
    (methodB { withContext := true } [⟨b!"x/models", b!"models", false, 0⟩] q t c).pkgs =
      [b!"gosql", b!"gosql", b!"models", b!"pgsql", b!"gosql", b!"gosql"] ∧
    wellScoped { withContext := true } [⟨b!"x/models", b!"models", false, 0⟩] q t c = true := by
  obtain ⟨q, t, c, hb, hc, hp⟩ := code_of (env := env0) (cat := shopCat) (n := b!"SelectUsers")
    (fs := [relFld (.slice (.ptr modelTy)), whereOf [sqlFld b!"Ids" [b!"u.id isin"] (.slice Analysis.intTy)], handlerFld true])
    (P := fun q t c => decide (inUsesFields q = true ∧ callOf q = .rows ∧
      t.reads.length = 2 ∧ (outputType q).isArray = false ∧
      (methodB { withContext := true } [⟨b!"x/models", b!"models", false, 0⟩] q t c).decls =
        [b!"nstatic", b!"len1", b!"pos1", b!"queryString", b!"params", b!"i", b!"rows", b!"err", b!"v", b!"err", b!"err"] ∧
      (methodB { withContext := true } [⟨b!"x/models", b!"models", false, 0⟩] q t c).pkgs =
        [b!"gosql", b!"gosql", b!"models", b!"pgsql", b!"gosql", b!"gosql"] ∧
      wellScoped { withContext := true } [⟨b!"x/models", b!"models", false, 0⟩] q t c = true)) (by decide +kernel)
  exact ⟨q, t, c, hb, hc, of_decide_eq_true hp⟩

/-- An insert of a slice of records that returns them. -/
theorem C106_example_batch : ∃ q t c, Built shopCat q t ∧ generate q t = some c ∧ inUsesFields q = true ∧ callOf q = .rows ∧
    (methodB {} [] q t c).decls = [b!"queryString", b!"params", b!"i", b!"v", b!"pos", b!"rows", b!"err", b!"i", b!"err"] ∧
    wellScoped {} [] q t c = true := by
  obtain ⟨q, t, c, hb, hc, hp⟩ := code_of (env := env0) (cat := shopCat) (n := b!"InsertUsers")
    (fs := [relFld (.slice userTy), returnFld])
    (P := fun q t c => decide (inUsesFields q = true ∧ callOf q = .rows ∧
      (methodB {} [] q t c).decls = [b!"queryString", b!"params", b!"i", b!"v", b!"pos", b!"rows", b!"err", b!"i", b!"err"] ∧
      wellScoped {} [] q t c = true)) (by decide +kernel)
  exact ⟨q, t, c, hb, hc, of_decide_eq_true hp⟩

/-- **C106** A select into an array is accepted, and its method appends a variable `v` that is not declared. -/
theorem C106_not_array : ∃ q t c, Built shopCat q t ∧ generate q t = some c ∧ (outputType q).isArray = true ∧
    b!"v" ∈ (methodB {} [] q t c).free ∧ b!"v" ∉ methodParams {} := by
  obtain ⟨q, t, c, hb, hc, hp⟩ := code_of (env := env0) (cat := shopCat) (n := b!"SelectUsers")
    (fs := [relFld (.array 5 userTy)])
    (P := fun q t c => decide ((outputType q).isArray = true ∧
      b!"v" ∈ (methodB {} [] q t c).free ∧ b!"v" ∉ methodParams {})) (by decide +kernel)
  exact ⟨q, t, c, hb, hc, of_decide_eq_true hp⟩

/-- **C106** So does the method of a delete that is to return records of which no field may be read. -/
theorem C106_not_unread : ∃ q t c, Built shopCat q t ∧ generate q t = some c ∧ t.reads.length = 0 ∧
    b!"v" ∈ (methodB {} [] q t c).free ∧ b!"v" ∉ methodParams {} := by
  obtain ⟨q, t, c, hb, hc, hp⟩ := code_of (env := env0) (cat := shopCat) (n := b!"DeleteUsers")
    (fs := [relFld (.slice (structTy b!"User" [sqlFld b!"Id" [b!"id", b!"wo"] Analysis.intTy])), returnFld])
    (P := fun q t c => decide (t.reads.length = 0 ∧
      b!"v" ∈ (methodB {} [] q t c).free ∧ b!"v" ∉ methodParams {})) (by decide +kernel)
  exact ⟨q, t, c, hb, hc, of_decide_eq_true hp⟩

/-- **C106** IN with a column in the condition of a join is accepted; the length of nothing is taken. -/
theorem C106_not_in : ∃ q t c, Built shopCat q t ∧ generate q t = some c ∧ inUsesFields q = false ∧
    [] ∈ (methodB {} [] q t c).free ∧ [] ∉ methodParams {} := by
  obtain ⟨q, t, c, hb, hc, hp⟩ := code_of (env := env0) (cat := shopCat) (n := b!"SelectUsers")
    (fs := [relFld (.slice userTy), Gram.joinsFld [dirFld b!"LeftJoin" [b!"posts:p", b!"p.user_id isin u.tags"]]])
    (P := fun q t c => decide (inUsesFields q = false ∧
      [] ∈ (methodB {} [] q t c).free ∧ [] ∉ methodParams {})) (by decide +kernel)
  exact ⟨q, t, c, hb, hc, of_decide_eq_true hp⟩

/-- **C106** Records of a package named `rows` are accepted: in the loop over the rows the name of the package is that of
the variable. -/
theorem C106_not_visible : ∃ q t c, Built shopCat q t ∧ generate q t = some c ∧
    (methodB {} [⟨b!"x/models", b!"rows", true, 0⟩] q t c).pkgs = [b!"rows", b!"pgsql"] ∧
    (methodB {} [⟨b!"x/models", b!"rows", true, 0⟩] q t c).visible (methodParams {}) = false := by
  obtain ⟨q, t, c, hb, hc, hp⟩ := code_of (env := env0) (cat := shopCat) (n := b!"SelectUsers")
    (fs := [relFld (.slice (.ptr modelTy))])
    (P := fun q t c => decide ((methodB {} [⟨b!"x/models", b!"rows", true, 0⟩] q t c).pkgs = [b!"rows", b!"pgsql"] ∧
    (methodB {} [⟨b!"x/models", b!"rows", true, 0⟩] q t c).visible (methodParams {}) = false)) (by decide +kernel)
  exact ⟨q, t, c, hb, hc, of_decide_eq_true hp⟩

end Verif.Generator.Scoped
