import Verif.Base

/-
Anchored regular expressions, as far as the analyzer uses them
(/repo/internal/analysis/analysis.go:21-46).

Go's `regexp` package is outside the repository.  `Rx.matches` is the usual matcher by
derivatives; `Rx.Lang` is the language a regular expression denotes and `Rx.matches_iff`
shows that the matcher decides it.  The `^`...`$` anchors of the Go expressions (no `(?m)` flag)
mean that the whole string has to be in the language.
-/
namespace Verif.Analysis

inductive Rx where
  | none
  | eps
  | cls (p : Char → Bool)
  | seq (a b : Rx)
  | alt (a b : Rx)
  | star (a : Rx)

namespace Rx

/-- The language of a regular expression. -/
inductive Lang : Rx → Bytes → Prop where
  | eps : Lang eps []
  | cls {p c} : p c = true → Lang (cls p) [c]
  | seq {a b s t} : Lang a s → Lang b t → Lang (seq a b) (s ++ t)
  | altL {a b s} : Lang a s → Lang (alt a b) s
  | altR {a b s} : Lang b s → Lang (alt a b) s
  | starNil {a} : Lang (star a) []
  | starCons {a c s t} : Lang a (c :: s) → Lang (star a) t → Lang (star a) (c :: s ++ t)

def nullable : Rx → Bool
  | none => false
  | eps => true
  | cls _ => false
  | seq a b => nullable a && nullable b
  | alt a b => nullable a || nullable b
  | star _ => true

def deriv (c : Char) : Rx → Rx
  | none => none
  | eps => none
  | cls p => if p c then eps else none
  | seq a b => if nullable a then alt (seq (deriv c a) b) (deriv c b) else seq (deriv c a) b
  | alt a b => alt (deriv c a) (deriv c b)
  | star a => seq (deriv c a) (star a)

/-- `Regexp.MatchString` of the expression anchored at both ends. -/
def «matches» (r : Rx) : Bytes → Bool
  | [] => nullable r
  | c :: cs => «matches» (deriv c r) cs

theorem nullable_iff (r : Rx) : nullable r = true ↔ Lang r [] := by
  induction r with
  | none => simp [nullable]; intro h; cases h
  | eps => simp [nullable]; exact .eps
  | cls p => simp [nullable]; intro h; cases h
  | seq a b iha ihb =>
    simp only [nullable, Bool.and_eq_true, iha, ihb]
    constructor
    · rintro ⟨h1, h2⟩; exact Lang.seq h1 h2
    · intro h
      generalize hs : ([] : Bytes) = s at h
      cases h with
      | seq h1 h2 =>
        obtain ⟨rfl, rfl⟩ := List.append_eq_nil_iff.1 hs.symm
        exact ⟨h1, h2⟩
  | alt a b iha ihb =>
    simp only [nullable, Bool.or_eq_true, iha, ihb]
    constructor
    · rintro (h | h)
      · exact .altL h
      · exact .altR h
    · intro h
      cases h with
      | altL h => exact .inl h
      | altR h => exact .inr h
  | star a _ => simp [nullable]; exact .starNil

theorem deriv_iff (c : Char) (r : Rx) : ∀ s, Lang (deriv c r) s ↔ Lang r (c :: s) := by
  induction r with
  | none => intro s; constructor <;> (intro h; cases h)
  | eps => intro s; constructor <;> (intro h; cases h)
  | cls p =>
    intro s
    unfold deriv
    split
    · rename_i hp
      constructor
      · intro h; cases h; exact .cls hp
      · intro h; cases h; exact .eps
    · rename_i hp
      constructor
      · intro h; cases h
      · intro h; cases h with
        | cls h => exact absurd h hp
  | seq a b iha ihb =>
    intro s
    have key : Lang (seq a b) (c :: s) ↔
        Lang (seq (deriv c a) b) s ∨ (nullable a = true ∧ Lang (deriv c b) s) := by
      constructor
      · intro h
        generalize hs : c :: s = u at h
        cases h with
        | @seq _ _ s1 t1 h1 h2 =>
          cases s1 with
          | nil =>
            right
            simp only [List.nil_append] at hs
            subst hs
            exact ⟨(nullable_iff a).2 h1, (ihb s).2 h2⟩
          | cons d s1 =>
            left
            simp only [List.cons_append, List.cons.injEq] at hs
            obtain ⟨rfl, rfl⟩ := hs
            exact .seq ((iha _).2 h1) h2
      · rintro (h | ⟨hn, h⟩)
        · cases h with
          | seq h1 h2 => exact Lang.seq ((iha _).1 h1) h2
        · exact Lang.seq (s := []) ((nullable_iff a).1 hn) ((ihb _).1 h)
    rw [key, deriv]
    split
    · rename_i hn
      constructor
      · intro h
        cases h with
        | altL h => exact .inl h
        | altR h => exact .inr ⟨hn, h⟩
      · rintro (h | ⟨_, h⟩)
        · exact .altL h
        · exact .altR h
    · rename_i hn
      simp [hn]
  | alt a b iha ihb =>
    intro s
    constructor
    · intro h
      cases h with
      | altL h => exact .altL ((iha _).1 h)
      | altR h => exact .altR ((ihb _).1 h)
    · intro h
      cases h with
      | altL h => exact .altL ((iha _).2 h)
      | altR h => exact .altR ((ihb _).2 h)
  | star a iha =>
    intro s
    constructor
    · intro h
      cases h with
      | seq h1 h2 => exact .starCons ((iha _).1 h1) h2
    · intro h
      generalize hs : c :: s = u at h
      cases h with
      | starNil => cases hs
      | starCons h1 h2 =>
        simp only [List.cons_append, List.cons.injEq] at hs
        obtain ⟨rfl, rfl⟩ := hs
        exact .seq ((iha _).2 h1) h2

/-- The matcher decides the language. -/
theorem matches_iff (s : Bytes) : ∀ r : Rx, r.matches s = true ↔ Lang r s := by
  induction s with
  | nil => intro r; exact nullable_iff r
  | cons c s ih => intro r; rw [«matches», ih, deriv_iff]

/-! Building blocks. -/

/-- `\w` of Go's RE2 syntax: ASCII letters, digits, underscore. -/
def wordChar (c : Char) : Bool := c.isAlphanum || c == '_'
/-- `[A-Za-z_]`. -/
def idStart (c : Char) : Bool := c.isAlpha || c == '_'

def opt (r : Rx) : Rx := alt r eps
def chr (c : Char) : Rx := cls (· == c)

/-- `[A-Za-z_]\w*`. -/
def ident : Rx := seq (cls idStart) (star (cls wordChar))

theorem lang_opt (r : Rx) (s : Bytes) : Lang (opt r) s ↔ Lang r s ∨ s = [] := by
  constructor
  · intro h
    cases h with
    | altL h => exact .inl h
    | altR h => cases h; exact .inr rfl
  · rintro (h | rfl)
    · exact .altL h
    · exact .altR .eps

theorem lang_chr (c : Char) (s : Bytes) : Lang (chr c) s ↔ s = [c] := by
  constructor
  · intro h
    cases h with
    | cls h => simp at h; rw [h]
  · rintro rfl; exact .cls (by simp)

theorem lang_seq (a b : Rx) (s : Bytes) :
    Lang (seq a b) s ↔ ∃ u v, s = u ++ v ∧ Lang a u ∧ Lang b v := by
  constructor
  · intro h
    cases h with
    | seq h1 h2 => exact ⟨_, _, rfl, h1, h2⟩
  · rintro ⟨u, v, rfl, h1, h2⟩; exact .seq h1 h2

theorem lang_star_cls (p : Char → Bool) (s : Bytes) :
    Lang (star (cls p)) s ↔ ∀ c ∈ s, p c = true := by
  constructor
  · intro h
    generalize hr : star (cls p) = r at h
    induction h with
    | eps => cases hr
    | cls => cases hr
    | seq => cases hr
    | altL => cases hr
    | altR => cases hr
    | starNil => simp
    | @starCons a c s t h1 _ _ ih2 =>
      cases hr
      cases h1 with
      | cls hp =>
        intro d hd
        simp at hd
        rcases hd with rfl | hd
        · exact hp
        · exact ih2 rfl d hd
  · intro h
    induction s with
    | nil => exact .starNil
    | cons c s ih =>
      exact Lang.starCons (s := []) (.cls (h c (by simp)))
        (ih (fun d hd => h d (by simp [hd])))

theorem lang_ident (s : Bytes) :
    Lang ident s ↔ ∃ c cs, s = c :: cs ∧ idStart c = true ∧ ∀ d ∈ cs, wordChar d = true := by
  unfold ident
  rw [lang_seq]
  constructor
  · rintro ⟨u, v, rfl, h1, h2⟩
    cases h1 with
    | cls h => exact ⟨_, v, rfl, h, (lang_star_cls _ _).1 h2⟩
  · rintro ⟨c, cs, rfl, h1, h2⟩
    exact ⟨[c], cs, rfl, .cls h1, (lang_star_cls _ _).2 h2⟩

end Rx
end Verif.Analysis
