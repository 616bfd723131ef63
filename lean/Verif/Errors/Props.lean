import Verif.Errors.Postgres

/-
C79, first part: the messages of the errors of package analysis.

`Tmpl.fine` is a check of a template that does not execute it; `run_fine` says what it is worth.
-/
namespace Verif.Errors
open Verif.Analysis Verif.Postgres

section fine
variable {F : Type}

/-- Every argument is a string. -/
def Expr.isStr (str : F → Bool) : Expr F → Bool
  | .lit _ => true
  | .path p => str p
  | .raw e => e.isStr str

/-- The argument has a value. -/
def Expr.isVal (str any : F → Bool) : Expr F → Bool
  | .lit _ => true
  | .path p => any p
  | .raw e => e.isStr str

def Cond.isVal (any : F → Bool) : Cond F → Bool
  | .path p => any p
  | .not c => c.isVal any
  | .or a b => a.isVal any && b.isVal any

/-- The pipeline is a reference to an empty string. -/
def Cond.isDead (dead : F → Bool) : Cond F → Bool
  | .path p => dead p
  | _ => false

/-- No execution fails, if the references of `str` are strings, those of `any` have values, those of
`dead` are empty strings, and the templates of `sub` can be executed. -/
def Tmpl.fine (fs : Funcs) (str any dead : F → Bool) (sub : Bytes → Bool) : Tmpl F → Bool
  | .done => true
  | .text _ k => k.fine fs str any dead sub
  | .out e k => e.isVal str any && k.fine fs str any dead sub
  | .call fn args k =>
    (List.lookup fn fs.colors).isSome && args.all (·.isStr str) && k.fine fs str any dead sub
  | .ite c t e k =>
    c.isVal any && (c.isDead dead || t.fine fs str any dead sub) && e.fine fs str any dead sub &&
      k.fine fs str any dead sub
  | .sub n k => sub n && k.fine fs str any dead sub

variable {get : F → Option Val} {str any dead : F → Bool}

theorem Expr.eval_str (hs : ∀ p, str p = true → ∃ s, get p = some (.str s)) (e : Expr F)
    (h : e.isStr str = true) : ∃ s, e.eval get = some (.str s) := by
  induction e with
  | lit s => exact ⟨_, rfl⟩
  | path p => exact hs p h
  | raw e ih =>
    obtain ⟨s, hs⟩ := ih h
    exact ⟨_, by simp only [Expr.eval, hs, Option.bind_some, Val.asStr, Option.map_some]; rfl⟩

theorem Expr.eval_val (hs : ∀ p, str p = true → ∃ s, get p = some (.str s))
    (ha : ∀ p, any p = true → ∃ v, get p = some v) (e : Expr F)
    (h : e.isVal str any = true) : ∃ v, e.eval get = some v := by
  cases e with
  | lit s => exact ⟨_, rfl⟩
  | path p => exact ha p h
  | raw e =>
    obtain ⟨s, h'⟩ := Expr.eval_str hs (.raw e) h
    exact ⟨_, h'⟩

theorem Cond.eval_val (ha : ∀ p, any p = true → ∃ v, get p = some v) (c : Cond F)
    (h : c.isVal any = true) : ∃ b, c.eval get = some b := by
  induction c with
  | path p => obtain ⟨v, hv⟩ := ha p h; exact ⟨v.truth, by simp [Cond.eval, hv]⟩
  | not c ih => obtain ⟨b, hb⟩ := ih h; exact ⟨!b, by simp [Cond.eval, hb]⟩
  | or a b iha ihb =>
    simp only [Cond.isVal, Bool.and_eq_true] at h
    obtain ⟨x, hx⟩ := iha h.1
    obtain ⟨y, hy⟩ := ihb h.2
    cases x
    · exact ⟨y, by simp [Cond.eval, hx, hy]⟩
    · exact ⟨true, by simp [Cond.eval, hx]⟩

theorem evalArgs_str (hs : ∀ p, str p = true → ∃ s, get p = some (.str s)) (es : List (Expr F))
    (h : es.all (·.isStr str) = true) : ∃ ss, evalArgs get es = some ss := by
  induction es with
  | nil => exact ⟨[], rfl⟩
  | cons e es ih =>
    simp only [List.all_cons, Bool.and_eq_true] at h
    obtain ⟨s, h1⟩ := Expr.eval_str hs e h.1
    obtain ⟨ss, h2⟩ := ih h.2
    exact ⟨s :: ss, by simp [evalArgs, h1, h2, Val.asStr]⟩

/-- A template that passes the check can be executed. -/
theorem run_fine {fs : Funcs} {sub : Bytes → Option Bytes} {subOk : Bytes → Bool}
    (hs : ∀ p, str p = true → ∃ s, get p = some (.str s))
    (ha : ∀ p, any p = true → ∃ v, get p = some v)
    (hd : ∀ p, dead p = true → get p = some (.str []))
    (hn : ∀ n, subOk n = true → ∃ s, sub n = some s) (t : Tmpl F)
    (h : t.fine fs str any dead subOk = true) : ∃ s, t.run get fs sub = some s := by
  induction t with
  | done => exact ⟨[], rfl⟩
  | text s k ih => obtain ⟨r, hr⟩ := ih h; exact ⟨_, by simp only [Tmpl.run, hr]; rfl⟩
  | out e k ih =>
    simp only [Tmpl.fine, Bool.and_eq_true] at h
    obtain ⟨v, hv⟩ := Expr.eval_val hs ha e h.1
    obtain ⟨r, hr⟩ := ih h.2
    exact ⟨v.print ++ r, by simp [Tmpl.run, hv, hr]⟩
  | call fn args k ih =>
    simp only [Tmpl.fine, Bool.and_eq_true] at h
    obtain ⟨⟨h1, h2⟩, h3⟩ := h
    obtain ⟨c, hc⟩ := Option.isSome_iff_exists.1 h1
    obtain ⟨ss, hss⟩ := evalArgs_str hs args h2
    obtain ⟨r, hr⟩ := ih h3
    exact ⟨getcolor fs.sep c ss ++ r, by simp [Tmpl.run, callFn, hc, hss, hr]⟩
  | ite c t e k iht ihe ihk =>
    simp only [Tmpl.fine, Bool.and_eq_true, Bool.or_eq_true] at h
    obtain ⟨⟨⟨h1, h2⟩, h3⟩, h4⟩ := h
    obtain ⟨b, hb⟩ := Cond.eval_val ha c h1
    obtain ⟨r, hr⟩ := ihk h4
    obtain ⟨se, hse⟩ := ihe h3
    cases b with
    | false => exact ⟨se ++ r, by simp [Tmpl.run, hb, hse, hr]⟩
    | true =>
      rcases h2 with h2 | h2
      · cases c with
        | path p =>
          have := hd p h2
          simp [Cond.eval, this, Val.truth] at hb
        | not c => simp [Cond.isDead] at h2
        | or a b => simp [Cond.isDead] at h2
      · obtain ⟨st, hst⟩ := iht h2
        exact ⟨st ++ r, by simp [Tmpl.run, hb, hst, hr]⟩
  | sub n k ih =>
    simp only [Tmpl.fine, Bool.and_eq_true] at h
    obtain ⟨s, h1⟩ := hn n h.1
    obtain ⟨r, hr⟩ := ih h.2
    exact ⟨s ++ r, by simp [Tmpl.run, h1, hr]⟩

/-! ### What a message begins with, and what it contains -/

/-- The template begins with the reference in bold white, a colon and a space. -/
def Tmpl.startsWith [DecidableEq F] (p : F) : Tmpl F → Bool
  | .call fn [.path q] (.text s _) => fn = b!"Wb" && q = p && s = ": "
  | _ => false

/-- `\033[1;97m…\033[0m`: bold white on the terminal. -/
def boldWhite (s : Bytes) : Bytes := '\x1b' :: b!"[1;97m" ++ s ++ '\x1b' :: b!"[0m"

theorem run_starts [DecidableEq F] {fs : Funcs} {sub : Bytes → Option Bytes} {p : F} {s out : Bytes}
    (t : Tmpl F) (hw : List.lookup b!"Wb" fs.colors = some b!"1;97") (ht : t.startsWith p = true)
    (hp : get p = some (.str s)) (h : t.run get fs sub = some out) :
    ∃ rest, out = boldWhite s ++ b!": " ++ rest := by
  unfold Tmpl.startsWith at ht
  split at ht
  · rename_i fn q tx k
    simp only [Bool.and_eq_true, decide_eq_true_eq] at ht
    obtain ⟨⟨rfl, rfl⟩, rfl⟩ := ht
    simp only [Tmpl.run, callFn, hw, evalArgs, Expr.eval, hp, Option.bind_some, Val.asStr,
      Option.map_some] at h
    cases hk : k.run get fs sub with
    | none => simp [hk] at h
    | some r =>
      simp only [hk, Option.map_some, Option.some.injEq] at h
      refine ⟨r, ?_⟩
      rw [← h]
      simp [getcolor, joinWith, boldWhite, escape]
  · cases ht

/-- The reference is among the arguments. -/
def Expr.isPath [DecidableEq F] (p : F) : Expr F → Bool
  | .path q => q = p
  | _ => false

/-- Whatever branches are taken, the text of the reference is shown. -/
def Tmpl.shows [DecidableEq F] (p : F) : Tmpl F → Bool
  | .done => false
  | .text _ k => k.shows p
  | .out e k => e.isPath p || k.shows p
  | .call _ args k => args.any (·.isPath p) || k.shows p
  | .ite _ t e k => (t.shows p && e.shows p) || k.shows p
  | .sub _ k => k.shows p

/-- `s` occurs in `out`. -/
def Shown (s out : Bytes) : Prop := ∃ a b, out = a ++ s ++ b

theorem Shown.left {s out : Bytes} (x : Bytes) (h : Shown s out) : Shown s (x ++ out) := by
  obtain ⟨a, b, rfl⟩ := h
  exact ⟨x ++ a, b, by simp⟩
theorem Shown.right {s out : Bytes} (x : Bytes) (h : Shown s out) : Shown s (out ++ x) := by
  obtain ⟨a, b, rfl⟩ := h
  exact ⟨a, b ++ x, by simp⟩
theorem Shown.self (s : Bytes) : Shown s s := ⟨[], [], by simp⟩

theorem joinWith_shown (sep s : Bytes) : ∀ ss : List Bytes, s ∈ ss → Shown s (joinWith sep ss)
  | [], h => by cases h
  | [x], h => by
    simp at h
    subst h
    exact Shown.self _
  | x :: y :: ys, h => by
    rw [joinWith]
    · rcases List.mem_cons.1 h with h | h
      · subst h
        exact ((Shown.self _).right _).right _
      · exact (joinWith_shown sep s (y :: ys) h).left _
    · simp

theorem getcolor_shown (sep c s : Bytes) (ss : List Bytes) (h : s ∈ ss) :
    Shown s (getcolor sep c ss) := by
  have : ¬ ss.length = 0 := by
    cases ss
    · cases h
    · simp
  simp only [getcolor, if_neg this]
  exact ((joinWith_shown sep s ss h).left _).right _

theorem evalArgs_mem [DecidableEq F] {p : F} {s : Bytes} (hp : get p = some (.str s))
    (es : List (Expr F)) (ss : List Bytes) (he : es.any (·.isPath p) = true)
    (h : evalArgs get es = some ss) : s ∈ ss := by
  induction es generalizing ss with
  | nil => simp at he
  | cons e es ih =>
    simp only [evalArgs, Option.bind_eq_some_iff, Option.map_eq_some_iff] at h
    obtain ⟨x, ⟨v, hv, hx⟩, xs, hxs, rfl⟩ := h
    simp only [List.any_cons, Bool.or_eq_true] at he
    rcases he with he | he
    · cases e with
      | path q =>
        simp only [Expr.isPath, decide_eq_true_eq] at he
        subst he
        simp only [Expr.eval, hp, Option.some.injEq] at hv
        subst hv
        simp only [Val.asStr, Option.some.injEq] at hx
        simp [hx]
      | lit s => simp [Expr.isPath] at he
      | raw e => simp [Expr.isPath] at he
    · exact List.mem_cons_of_mem _ (ih xs he hxs)

theorem run_shows [DecidableEq F] {fs : Funcs} {sub : Bytes → Option Bytes} {p : F} {s : Bytes}
    (hp : get p = some (.str s)) (t : Tmpl F) :
    ∀ out, t.shows p = true → t.run get fs sub = some out → Shown s out := by
  induction t with
  | done => intro out h; simp [Tmpl.shows] at h
  | text x k ih =>
    intro out h hr
    simp only [Tmpl.run, Option.map_eq_some_iff] at hr
    obtain ⟨r, hr, rfl⟩ := hr
    exact (ih r h hr).left _
  | out e k ih =>
    intro out h hr
    simp only [Tmpl.run, Option.bind_eq_some_iff, Option.map_eq_some_iff] at hr
    obtain ⟨v, hv, r, hr, rfl⟩ := hr
    simp only [Tmpl.shows, Bool.or_eq_true] at h
    rcases h with h | h
    · cases e with
      | path q =>
        simp only [Expr.isPath, decide_eq_true_eq] at h
        subst h
        simp only [Expr.eval, hp, Option.some.injEq] at hv
        subst hv
        exact (Shown.self s).right _
      | lit s => simp [Expr.isPath] at h
      | raw e => simp [Expr.isPath] at h
    · exact (ih r h hr).left _
  | call fn args k ih =>
    intro out h hr
    simp only [Tmpl.run, callFn, Option.bind_eq_some_iff, Option.map_eq_some_iff] at hr
    obtain ⟨x, ⟨c, hc, ss, hss, rfl⟩, r, hr, rfl⟩ := hr
    simp only [Tmpl.shows, Bool.or_eq_true] at h
    rcases h with h | h
    · exact (getcolor_shown _ _ _ _ (evalArgs_mem hp args ss h hss)).right _
    · exact (ih r h hr).left _
  | ite c t e k iht ihe ihk =>
    intro out h hr
    simp only [Tmpl.run, Option.bind_eq_some_iff, Option.map_eq_some_iff] at hr
    obtain ⟨b, hb, x, hx, r, hr, rfl⟩ := hr
    simp only [Tmpl.shows, Bool.or_eq_true, Bool.and_eq_true] at h
    rcases h with h | h
    · cases b
      · exact (ihe x h.2 (by simpa using hx)).right _
      · exact (iht x h.1 (by simpa using hx)).right _
    · exact (ihk r h hr).left _
  | sub n k ih =>
    intro out h hr
    simp only [Tmpl.run, Option.bind_eq_some_iff, Option.map_eq_some_iff] at hr
    obtain ⟨x, hx, r, hr, rfl⟩ := hr
    exact (ih r h hr).left _

end fine

/-! ### Package analysis -/

/-- The references that are strings. -/
def AnPath.isStr : AnPath → Bool
  | .IsDirective | .IsSelectQueryKind | .TagExprIsUnary | .TagExprHasRHS => false
  | _ => true

theorem anGet_str (e : AnErr) (p : AnPath) (h : p.isStr = true) : ∃ s, anGet e p = some (.str s) := by
  cases p <;> first | exact ⟨_, rfl⟩ | cases h

theorem anGet_any (e : AnErr) (p : AnPath) : ∃ v, anGet e p = some v := by
  cases p <;> exact ⟨_, rfl⟩

/-- Every code has a template. -/
theorem anTemplates_all (c : ECode) : ∃ t, List.lookup c anTemplates = some t := by
  cases c <;> exact ⟨_, rfl⟩

/-- All templates pass the check. -/
theorem anTemplates_fine :
    anTemplates.all (fun x => x.2.fine anFuncs AnPath.isStr (fun _ => true) (fun _ => false)
      fun _ => false) = true := by decide +kernel

theorem anTemplates_start : anTemplates.all (fun x => x.2.startsWith .FileAndLine) = true := by
  decide +kernel

theorem lookup_mem {α β : Type} [BEq α] [LawfulBEq α] {a : α} {b : β} {l : List (α × β)}
    (h : List.lookup a l = some b) : (a, b) ∈ l := by
  induction l with
  | nil => simp at h
  | cons x xs ih =>
    obtain ⟨k, v⟩ := x
    simp only [List.lookup] at h
    split at h
    · rename_i hk
      simp at hk h
      simp [hk, h]
    · exact List.mem_cons_of_mem _ (ih h)

/-- **C79 (analysis).**  Every error of the analysis has a message: `Error` does not panic.  The message
begins with the file and the line, in bold white, and a colon. -/
theorem C79_analysis (e : AnErr) :
    ∃ rest, e.message =
      some (boldWhite (e.fileName ++ b!":" ++ itoa e.fileLine) ++ b!": " ++ rest) := by
  obtain ⟨t, ht⟩ := anTemplates_all e.code
  have hm := lookup_mem ht
  have h1 := List.all_eq_true.1 anTemplates_fine _ hm
  have h2 := List.all_eq_true.1 anTemplates_start _ hm
  obtain ⟨s, hs⟩ := run_fine (sub := fun _ => none) (fun p hp => anGet_str e p hp) (fun p _ => anGet_any e p)
    (by simp) (by simp) t h1
  obtain ⟨rest, hr⟩ := run_starts t (by decide) h2 (show anGet e .FileAndLine = _ from rfl) hs
  refine ⟨rest, ?_⟩
  simp only [AnErr.message, ht, Option.bind_some, hs, hr, AnErr.fileAndLine]

/-- The codes whose messages do not name the target. -/
def anonymous : ECode → Bool
  | .badJoinConditionLHS | .columnFieldUnknown => true
  | _ => false

theorem anTemplates_target :
    anTemplates.all (fun x => anonymous x.1 || x.2.shows .TargetName) = true := by decide +kernel

/-- **C79 (the target).**  The message names the target type, but for two codes. -/
theorem C79_target (e : AnErr) (out : Bytes) (hc : e.code ≠ .badJoinConditionLHS)
    (hc' : e.code ≠ .columnFieldUnknown) (h : e.message = some out) : Shown e.targetName out := by
  obtain ⟨t, ht⟩ := anTemplates_all e.code
  have h2 := List.all_eq_true.1 anTemplates_target _ (lookup_mem ht)
  simp only [AnErr.message, ht, Option.bind_some] at h
  have : t.shows .TargetName = true := by
    have ha : anonymous e.code = false := by
      cases hcode : e.code <;> first | rfl | exact absurd hcode hc | exact absurd hcode hc'
    simpa [ha] using h2
  exact run_shows (show anGet e .TargetName = _ from rfl) t out this h

/-- The codes that report one value of a tag. -/
def aboutTag : ECode → Bool
  | .conflictingRelName | .conflictingRelAlias | .badColIdTagValue | .badRelIdTagValue
  | .badBoolTagValue | .badUIntegerTagValue | .badNullsOrderTagValue | .badOverrideTagValue
  | .badDirectiveBooleanExpr | .badJoinConditionLHS | .illegalListPredicate | .illegalUnaryPredicate
  | .illegalFieldQuantifier | .illegalPredicateQuantifier | .unknownColumnQualifier
  | .columnFieldUnknown => true
  | _ => false

theorem anTemplates_tag :
    anTemplates.all (fun x => !aboutTag x.1 || x.2.shows .TagError) = true := by decide +kernel

/-- **C79 (the value).**  Where one value of a tag is wrong, the message quotes it. -/
theorem C79_value (e : AnErr) (out : Bytes) (hc : aboutTag e.code = true) (h : e.message = some out) :
    Shown e.tagError out := by
  obtain ⟨t, ht⟩ := anTemplates_all e.code
  have h2 := List.all_eq_true.1 anTemplates_tag _ (lookup_mem ht)
  simp only [AnErr.message, ht, Option.bind_some] at h
  exact run_shows (show anGet e .TagError = _ from rfl) t out (by simpa [hc] using h2) h

/-- A case of `C79_analysis`. -/
example : ({ code := .missingRelField, targetName := b!"SelectUser", fileName := b!"a.go"
             fileLine := 12 } : AnErr).message.map (·.take 20) =
    some ('\x1b' :: b!"[1;97ma.go:12" ++ '\x1b' :: b!"[0m: ") := by decide +kernel

end Verif.Errors
