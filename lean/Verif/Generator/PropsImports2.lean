import Verif.Generator.Print

/- Property C84: the order of the imports. -/
namespace Verif.Generator.Print
open Verif.Generator

/-- The standard library, other packages, gosql (generator.go:2107-2119). -/
def groupOf (x : Spec) : Nat := if isGosql x then 2 else if hasDot x then 1 else 0

/-- The one import may stand before the other. -/
def mayPrecede (x y : Spec) : Prop :=
  groupOf x < groupOf y ∨ groupOf x = groupOf y ∧ lessText y.path x.path = false

theorem lessText_irrefl : ∀ a, lessText a a = false
  | [] => rfl
  | a :: as => by simp [lessText, lessText_irrefl as]

theorem lessText_asymm : ∀ {a b}, lessText a b = true → lessText b a = false
  | [], [], h => by cases h
  | [], _ :: _, _ => rfl
  | _ :: _, [], h => by cases h
  | a :: as, b :: bs, h => by
    unfold lessText at h ⊢
    by_cases hab : a = b
    · subst hab
      simp only [if_true] at h ⊢
      exact lessText_asymm h
    · rw [if_neg hab] at h
      rw [if_neg (Ne.symm hab)]
      simp only [decide_eq_true_eq, decide_eq_false_iff_not] at h ⊢
      omega

/-- What is not less than the lesser is not less than the greater... -/
theorem lessText_trans : ∀ {a b c}, lessText b a = false → lessText c b = false → lessText c a = false
  | [], [], [], _, _ => rfl
  | [], [], _ :: _, _, _ => rfl
  | [], _ :: _, [], _, h => by simp [lessText] at h
  | [], _ :: _, _ :: _, _, _ => rfl
  | _ :: _, [], _, h, _ => by simp [lessText] at h
  | _ :: _, _ :: _, [], _, h => by simp [lessText] at h
  | a :: as, b :: bs, c :: cs, h1, h2 => by
    unfold lessText at h1 h2 ⊢
    by_cases hba : b = a
    · subst hba
      rw [if_pos rfl] at h1
      by_cases hcb : c = b
      · subst hcb
        rw [if_pos rfl] at h2 ⊢
        exact lessText_trans h1 h2
      · rw [if_neg hcb] at h2 ⊢
        exact h2
    · rw [if_neg hba] at h1
      simp only [decide_eq_false_iff_not] at h1
      have hne : a.toNat ≠ b.toNat := fun e => hba (Char.toNat_inj.1 e.symm)
      by_cases hcb : c = b
      · subst hcb
        rw [if_neg hba]
        simpa using h1
      · rw [if_neg hcb] at h2
        simp only [decide_eq_false_iff_not] at h2
        have hca : c ≠ a := fun e => by subst e; omega
        rw [if_neg hca]
        simp only [decide_eq_false_iff_not]
        omega

theorem insertSpec_perm (x : Spec) : ∀ l, (insertSpec x l).Perm (x :: l)
  | [] => .refl _
  | y :: ys => by
    unfold insertSpec
    split
    · exact ((insertSpec_perm x ys).cons y).trans (.swap ..)
    · exact .refl _

theorem sortSpecs_perm : ∀ l, (sortSpecs l).Perm l
  | [] => .refl _
  | x :: xs => (insertSpec_perm x _).trans ((sortSpecs_perm xs).cons x)

theorem insertSpec_sorted {x : Spec} : ∀ {l : List Spec},
    l.Pairwise (fun a b => lessText b.path a.path = false) →
    (insertSpec x l).Pairwise (fun a b => lessText b.path a.path = false)
  | [], _ => by simp [insertSpec]
  | y :: ys, h => by
    rw [List.pairwise_cons] at h
    unfold insertSpec
    split
    · next hy =>
      rw [List.pairwise_cons]
      refine ⟨fun z hz => ?_, insertSpec_sorted h.2⟩
      rcases List.mem_cons.1 ((insertSpec_perm x ys).subset hz) with rfl | hz
      · exact lessText_asymm hy
      · exact h.1 z hz
    · next hy =>
      rw [List.pairwise_cons, List.pairwise_cons]
      have hy : lessText y.path x.path = false := by simpa using hy
      refine ⟨fun z hz => ?_, h⟩
      rcases List.mem_cons.1 hz with rfl | hz
      · exact hy
      · exact lessText_trans hy (h.1 z hz)

theorem sortSpecs_sorted : ∀ l : List Spec, (sortSpecs l).Pairwise (fun a b => lessText b.path a.path = false)
  | [] => List.Pairwise.nil
  | _ :: xs => insertSpec_sorted (sortSpecs_sorted xs)

theorem filter_split {α : Type} (p : α → Bool) : ∀ l : List α, (l.filter p ++ l.filter fun x => !p x).Perm l
  | [] => .refl _
  | x :: xs => by
    cases h : p x
    · simp only [List.filter_cons, h, Bool.false_eq_true, if_false, Bool.not_false, if_true]
      exact List.perm_middle.trans ((filter_split p xs).cons x)
    · simp only [List.filter_cons, h, if_true, Bool.not_true, Bool.false_eq_true, if_false]
      exact (filter_split p xs).cons x

/-- **C84** The imports are written in groups - the standard library, other packages, gosql - and by their
paths within a group, and none is left out or added. -/
theorem C84_imports (s : List Imp) (h : importDecl s ≠ []) : ∃ l : List Spec, l.Perm (importDecl s) ∧
    l.Pairwise mayPrecede ∧
    importText s = b!"import (\n" ++ l.flatMap specText ++ b!")\n" := by
  let d := importDecl s
  let l1 := sortSpecs (d.filter fun x => !isGosql x && !hasDot x)
  let l2 := sortSpecs (d.filter fun x => !isGosql x && hasDot x)
  let l3 := sortSpecs (d.filter isGosql)
  have g1 : ∀ x ∈ l1, groupOf x = 0 := fun x hx => by
    have := List.mem_filter.1 ((sortSpecs_perm _).subset hx)
    simp only [Bool.and_eq_true, Bool.not_eq_true'] at this
    simp [groupOf, this.2.1, this.2.2]
  have g2 : ∀ x ∈ l2, groupOf x = 1 := fun x hx => by
    have := List.mem_filter.1 ((sortSpecs_perm _).subset hx)
    simp only [Bool.and_eq_true, Bool.not_eq_true'] at this
    simp [groupOf, this.2.1, this.2.2]
  have g3 : ∀ x ∈ l3, groupOf x = 2 := fun x hx => by
    have := List.mem_filter.1 ((sortSpecs_perm _).subset hx)
    simp [groupOf, this.2]
  refine ⟨l1 ++ l2 ++ l3, ?_, ?_, ?_⟩
  · refine (((sortSpecs_perm _).append (sortSpecs_perm _)).append (sortSpecs_perm _)).trans ?_
    refine (List.perm_append_comm.trans (List.Perm.trans ?_ (filter_split isGosql d)))
    refine List.Perm.append_left _ ?_
    have := filter_split (fun x => !hasDot x) (d.filter fun x => !isGosql x)
    simpa [List.filter_filter, Bool.and_comm, d] using this
  · rw [List.pairwise_append, List.pairwise_append]
    have key : ∀ (n : Nat) (l : List Spec), (∀ x ∈ l, groupOf x = n) →
        l.Pairwise (fun a b => lessText b.path a.path = false) → l.Pairwise mayPrecede := by
      intro n l hl hs
      refine List.Pairwise.imp_of_mem (fun ha hb h => .inr ⟨by rw [hl _ ha, hl _ hb], h⟩) hs
    refine ⟨⟨key 0 _ g1 (sortSpecs_sorted _), key 1 _ g2 (sortSpecs_sorted _), fun a ha b hb => .inl ?_⟩,
      key 2 _ g3 (sortSpecs_sorted _), fun a ha b hb => .inl ?_⟩
    · rw [g1 a ha, g2 b hb]; decide
    · rw [g3 b hb]
      rcases List.mem_append.1 ha with ha | ha
      · rw [g1 a ha]; decide
      · rw [g2 a ha]; decide
  · have : ¬ (importDecl s).length = 0 := fun e => h (List.length_eq_zero_iff.1 e)
    simp only [importText, this, if_false, List.flatMap_append]
    simp [line, l1, l2, l3, d]

/-- In a file with imports of all three groups. -/
theorem C84_imports_example :
    importText [{ path := b!"github.com/frk/gosql", name := b!"gosql" }, { path := b!"github.com/lib/pq", name := b!"pq" },
      { path := b!"time", name := b!"time" }, { path := b!"net", name := b!"net" }] =
    b!"import (\n\"net\"\n\"time\"\n\"github.com/lib/pq\"\n\"github.com/frk/gosql\"\n)\n" := by decide

end Verif.Generator.Print
