import Verif.Generator.PropsGoScope2

/- Property C106: the query string, and the method as a whole. -/
namespace Verif.Generator.Scoped
open Verif.Analysis Verif.Postgres Verif.Generator.Print GoBlk

/-- The variables of a method are declared and used. -/
structure Sound (conf : PrintConf) (b : GoBlk) : Prop where
  sub : ∀ x ∈ b.free, x ∈ methodParams conf
  ends : b.ends = true
  fine : b.fine (methodParams conf) = true

theorem slotVars_mem {l : List Slot} {x : Bytes} (h : x ∈ slotVars l) :
    ∃ k, .slice k ∈ l ∧ (x = lenVar k ∨ x = posVar k) := by
  induction l with
  | nil => cases h
  | cons s l ih =>
    cases s with
    | num n =>
      obtain ⟨k, hk, hx⟩ := ih h
      exact ⟨k, List.mem_cons_of_mem _ hk, hx⟩
    | slice k =>
      simp only [slotVars, List.mem_cons] at h
      rcases h with h | h | h
      · exact ⟨k, List.mem_cons_self, .inl h⟩
      · exact ⟨k, List.mem_cons_self, .inr h⟩
      · obtain ⟨k, hk, hx⟩ := ih h
        exact ⟨k, List.mem_cons_of_mem _ hk, hx⟩

theorem no_slotVars {l : List Slot} (h : ∀ k, .slice k ∉ l) : slotVars l = [] := by
  cases hl : slotVars l with
  | nil => rfl
  | cons x xs =>
    obtain ⟨k, hk, _⟩ := slotVars_mem (x := x) (by rw [hl]; exact List.mem_cons_self)
    exact absurd hk (h k)

theorem later_fresh {conf : PrintConf} {l : List Bytes} (hl : ∀ x ∈ l, x ∉ laterNames) :
    ∀ n ∈ laterNames, n ∉ methodParams conf ++ l := by
  intro n hn h
  rcases List.mem_append.1 h with h | h
  · exact (not_param h).2.2.2.2.2 hn
  · exact hl n h hn

section
variable {conf : PrintConf} {q : Query} {t : TargetInfo} {c : Code} {r : GoBlk}

theorem sound_plain (hs : slotVars c.sql.stmt.slots = []) (h : Good conf false r) : Sound conf (declB q c r) where
  sub x hx := by
    simp [declB, free, hs] at hx
    have := h.sub x hx.1
    simp [Outer] at this
    grind
  ends := h.ends
  fine := by
    have h0 : b!"queryString" ∉ methodParams conf := fun h => (not_param h).1 rfl
    have h1 := h.fine (methodParams conf ++ [b!"queryString"]) (later_fresh (by decide))
    simp [declB, GoBlk.fine, h0, h.query, h1]

theorem Good.tail {p : Bool} (hs2 : slotVars c.sql.tail.slots = []) (h : Good conf p r) : Good conf p (tailB c r) := by
  unfold tailB
  split
  · exact h
  · refine h.stmt _ _ _ ?_
    intro n hn
    rw [hs2] at hn
    simp only [List.mem_singleton] at hn
    exact .inr (.inl hn)

theorem sound_filtered (hs : slotVars c.sql.stmt.slots = []) (hs2 : slotVars c.sql.tail.slots = []) (f : Bytes)
    (h : Good conf true r) : Sound conf (filteredB q f c r) := by
  have hq := q_mem conf
  have h0 : b!"queryString" ∉ methodParams conf := fun h => (not_param h).1 rfl
  have h2 : b!"params" ∉ methodParams conf := fun h => (not_param h).2.1 rfl
  have h3 : b!"filterString" ∉ methodParams conf := fun h => (not_param h).2.2.2.2.1 rfl
  have h := h.tail hs2
  unfold filteredB declB
  generalize tailB c r = r at h
  have h1 := h.fine (methodParams conf ++ [b!"queryString"] ++ [b!"filterString", b!"params"])
    (by rw [List.append_assoc]; exact later_fresh (by decide))
  have h4 := h.params rfl
  have h5 := h.query
  have h6 := h.sub
  refine ⟨?_, h.ends, ?_⟩
  · intro x hx
    simp [free, hs] at hx
    have := h6 x
    unfold Outer at this
    grind
  · simp [GoBlk.fine, free, h0, h2, h3, h4]
    simpa using h1

theorem sound_batch (hs : slotVars c.sql.stmt.slots = []) (hs2 : slotVars c.sql.tail.slots = [])
    (ha : ∀ x ∈ c.args, idents x = [b!"v"]) (hr : c.args = [] → (c.rowVals.any fun v => !isDefault v) = false)
    (h : Good conf (decide (c.args.length > 0)) r) : Sound conf (batchB q c r) := by
  have hq := q_mem conf
  have h0 : b!"queryString" ∉ methodParams conf := fun h => (not_param h).1 rfl
  have h2 : b!"params" ∉ methodParams conf := fun h => (not_param h).2.1 rfl
  -- the end
  have tail : ∃ T : GoBlk, T = .stmt [b!"queryString"] [] (line b!"queryString = queryString[:len(queryString)-1]") (tailB c r) ∧
      (∀ x ∈ T.free, Outer conf (decide (c.args.length > 0)) x) ∧ b!"queryString" ∈ T.free ∧
      (c.args.length > 0 → b!"params" ∈ T.free) ∧ T.ends = true ∧ ∀ cur, T.fine cur = r.fine cur := by
    refine ⟨_, rfl, ?_⟩
    have h := h.tail hs2
    have h7 := h.stmt [b!"queryString"] [] (line b!"queryString = queryString[:len(queryString)-1]")
      (by intro n hn; simp only [List.mem_singleton] at hn; exact .inr (.inl hn))
    refine ⟨h7.sub, h7.query, fun hp => h7.params (by simpa using hp), h7.ends, ?_⟩
    intro cur
    simp only [GoBlk.fine, tailB]
    split <;> rfl
  obtain ⟨T, hT, t1, t2, t3, t4, t5⟩ := tail
  simp only [batchB, ← hT]
  by_cases hp : c.args.length > 0
  · have h1 := h.fine (methodParams conf ++ [b!"queryString"] ++ [b!"params"])
      (by rw [List.append_assoc]; exact later_fresh (by decide))
    simp only [if_pos hp, assignsB, if_neg (show ¬ c.args.length = 0 by omega), declB, rowB]
    have t3 := t3 hp
    have hav : ∀ x ∈ c.args.flatMap idents, x = b!"v" := by
      intro x hx
      obtain ⟨a, hm, hx⟩ := List.mem_flatMap.1 hx
      rw [ha a hm] at hx
      simpa using hx
    have hv : b!"v" ∈ c.args.flatMap idents := by
      obtain ⟨a, as, e⟩ : ∃ a as, c.args = a :: as := by
        cases e : c.args with
        | nil => rw [e] at hp; simp at hp
        | cons a as => exact ⟨a, as, rfl⟩
      refine List.mem_flatMap.2 ⟨a, by rw [e]; exact List.mem_cons_self, ?_⟩
      rw [ha a (by rw [e]; exact List.mem_cons_self)]
      simp
    generalize c.args.flatMap idents = us at hav hv ⊢
    have hR : ∀ x ∈ (if (c.rowVals.any fun v => !isDefault v) = true then [b!"pos"] else []), x = b!"pos" := by
      intro x hx
      split at hx <;> simp at hx
      exact hx
    generalize (if (c.rowVals.any fun v => !isDefault v) = true then [b!"pos"] else []) = rs at hR ⊢
    refine ⟨?_, t4, ?_⟩
    · intro x hx
      simp only [free, hs, List.mem_append, List.mem_filter, List.mem_cons, List.not_mem_nil, List.nil_append, or_false,
        List.contains_iff_mem, Bool.not_eq_true', List.append_nil] at hx
      have := t1 x
      unfold Outer at this
      simp at hx
      grind
    · simp [GoBlk.fine, free, h0, h2, hv, t3, t5]
      simpa using h1
  · have he : c.args = [] := List.length_eq_zero_iff.1 (by omega)
    have h1 := h.fine (methodParams conf ++ [b!"queryString"]) (later_fresh (by decide))
    simp only [if_neg hp, declB, rowB, hr he]
    refine ⟨?_, t4, ?_⟩
    · intro x hx
      simp [free, hs] at hx
      have := t1 x
      simp [Outer, hp] at this
      grind
    · simp [GoBlk.fine, free, h0, t5, h1]

/-! ### Lists of values -/

theorem lenVar_inj {j k : Nat} (h : lenVar j = lenVar k) : j = k := by
  simp only [lenVar] at h
  exact itoa_inj (List.append_cancel_left h)

theorem posVar_inj {j k : Nat} (h : posVar j = posVar k) : j = k := by
  simp only [posVar] at h
  exact itoa_inj (List.append_cancel_left h)

theorem len_ne_pos (j k : Nat) : lenVar j ≠ posVar k := by
  intro h
  simp [lenVar, posVar] at h

/-- The name is none of those that are numbered. -/
def plainName (x : Bytes) : Prop := ∀ k, x ≠ lenVar k ∧ x ≠ posVar k

theorem plain_of {x : Bytes} (h : b!"len".isPrefixOf x = false) (h2 : b!"pos".isPrefixOf x = false) : plainName x := by
  intro k
  constructor
  · rintro rfl
    simp [lenVar] at h
  · rintro rfl
    simp [posVar] at h2

theorem param_plain {x : Bytes} (h : x ∈ methodParams conf) : plainName x := by
  unfold methodParams at h
  split at h <;> simp at h <;> rcases h with rfl | rfl | rfl <;> exact plain_of (by decide) (by decide)

theorem sumVars_mem (xs : List GoExpr) (k : Nat) (x : Bytes) :
    x ∈ sumVars k xs ↔ ∃ j, k ≤ j ∧ j < k + xs.length ∧ x = lenVar j := by
  induction xs generalizing k with
  | nil =>
    simp only [sumVars, List.not_mem_nil, List.length_nil, Nat.add_zero, false_iff]
    rintro ⟨j, h1, h2, _⟩
    omega
  | cons y ys ih =>
    simp only [sumVars, List.mem_cons, ih, List.length_cons]
    constructor
    · rintro (rfl | ⟨j, h1, h2, rfl⟩)
      · exact ⟨k, by omega, by omega, rfl⟩
      · exact ⟨j, by omega, by omega, rfl⟩
    · rintro ⟨j, h1, h2, rfl⟩
      by_cases hj : j = k
      · exact .inl (hj ▸ rfl)
      · exact .inr ⟨j, by omega, by omega, rfl⟩

theorem loops_facts (xs : List GoExpr) (hx : ∀ x ∈ xs, idents x = [b!"q"]) (k : Nat) (r : GoBlk) :
    (∀ x ∈ (sliceLoopsB k xs r).free, (∃ j, k ≤ j ∧ j < k + xs.length ∧ (x = lenVar j ∨ x = posVar j)) ∨
      x = b!"params" ∨ x = b!"q" ∨ x ∈ r.free) ∧
    (∀ x ∈ r.free, x ∈ (sliceLoopsB k xs r).free) ∧
    (∀ j, k ≤ j → j < k + xs.length → posVar j ∈ (sliceLoopsB k xs r).free) ∧
    (sliceLoopsB k xs r).ends = r.ends ∧ ∀ cur, (sliceLoopsB k xs r).fine cur = r.fine cur := by
  induction xs generalizing k with
  | nil => exact ⟨fun x h => .inr (.inr (.inr h)), fun x h => h, fun j h1 h2 => by simp at h2; omega, rfl, fun _ => rfl⟩
  | cons y ys ih =>
    obtain ⟨i1, i2, i3, i4, i5⟩ := ih (fun x h => hx x (List.mem_cons_of_mem _ h)) (k + 1)
    have hy := hx y List.mem_cons_self
    have hpi : posVar k ≠ b!"i" := by simp [posVar]
    simp only [sliceLoopsB]
    refine ⟨?_, ?_, ?_, by simp only [GoBlk.ends, i4], ?_⟩
    · intro x h
      simp [free, hy] at h
      rcases h with h | h | h | h
      · exact .inl ⟨k, by omega, by simp, .inl h⟩
      · exact .inr (.inl h)
      · rcases h.1 with h' | h' | h'
        · exact .inl ⟨k, by omega, by simp, .inr h'⟩
        · exact absurd h' h.2
        · exact .inr (.inr (.inl h'))
      · rcases i1 x h with ⟨j, h1, h2, h3⟩ | h
        · exact .inl ⟨j, by omega, by simp only [List.length_cons]; omega, h3⟩
        · exact .inr h
    · intro x h
      simp only [free, List.mem_append]
      exact .inr (i2 x h)
    · intro j h1 h2
      simp only [List.length_cons] at h2
      by_cases hj : j = k
      · subst hj
        simp [free, hpi]
      · simp only [free, List.mem_append]
        exact .inr (i3 j (by omega) (by omega))
    · intro cur
      simp [GoBlk.fine, free, i5]

theorem vars_keep (xs : List GoExpr) (k : Nat) (r : GoBlk) (x : Bytes) (h : x ∈ r.free)
    (hn : ∀ j, k ≤ j → x ≠ lenVar j ∧ x ≠ posVar j) : x ∈ (sliceVarsB k xs r).free := by
  induction xs generalizing k with
  | nil => exact h
  | cons y ys ih =>
    have := ih (k + 1) (fun j hj => hn j (by omega))
    have h0 := hn k (Nat.le_refl k)
    simp [sliceVarsB, free, this, h0.1, h0.2]

theorem vars_free (xs : List GoExpr) (hx : ∀ x ∈ xs, idents x = [b!"q"]) (k : Nat) (r : GoBlk) :
    ∀ x ∈ (sliceVarsB k xs r).free, x = b!"q" ∨ x = b!"nstatic" ∨ (k ≠ 1 ∧ (x = posVar (k - 1) ∨ x = lenVar (k - 1))) ∨
      (x ∈ r.free ∧ ∀ j, k ≤ j → j < k + xs.length → x ≠ lenVar j ∧ x ≠ posVar j) := by
  induction xs generalizing k with
  | nil => exact fun x h => .inr (.inr (.inr ⟨h, fun j h1 h2 => by simp at h2; omega⟩))
  | cons y ys ih =>
    intro x h
    have ih := ih (fun x h => hx x (List.mem_cons_of_mem _ h)) (k + 1)
    simp only [sliceVarsB, free, hx y List.mem_cons_self, List.mem_append, List.mem_filter, List.mem_singleton] at h
    simp at h
    rcases h with h | ⟨h, h2⟩
    · exact .inl h
    · rcases h with h | ⟨h, h3⟩
      · split at h
        · simp at h; exact .inr (.inl h)
        · next hk =>
          simp at h
          exact .inr (.inr (.inl ⟨hk, h⟩))
      · rcases ih x h with h | h | ⟨_, h | h⟩ | ⟨h, h4⟩
        · exact .inl h
        · exact .inr (.inl h)
        · exact absurd h h3
        · exact absurd h h2
        · refine .inr (.inr (.inr ⟨h, ?_⟩))
          intro j h5 h6
          by_cases hj : j = k
          · subst hj; exact ⟨h2, h3⟩
          · exact h4 j (by omega) (by simp only [List.length_cons] at h6; omega)

theorem vars_ends (xs : List GoExpr) (k : Nat) (r : GoBlk) : (sliceVarsB k xs r).ends = r.ends := by
  induction xs generalizing k with
  | nil => rfl
  | cons y ys ih => simp only [sliceVarsB, GoBlk.ends, ih]

theorem vars_fine (xs : List GoExpr) (k : Nat) (r : GoBlk) (base : List Bytes) (hb : ∀ x ∈ base, plainName x)
    (hu : ∀ j, k ≤ j → j < k + xs.length → lenVar j ∈ r.free ∧ posVar j ∈ r.free)
    (hr : ∀ cur, (∀ n ∈ cur, n ∈ base ∨ ∃ j, n = lenVar j ∨ n = posVar j) → r.fine cur = true) :
    ∀ cur, (∀ n ∈ cur, n ∈ base ∨ ∃ j, j < k ∧ (n = lenVar j ∨ n = posVar j)) → (sliceVarsB k xs r).fine cur = true := by
  induction xs generalizing k with
  | nil =>
    intro cur hc
    refine hr cur fun n hn => ?_
    rcases hc n hn with h | ⟨j, _, h⟩
    · exact .inl h
    · exact .inr ⟨j, h⟩
  | cons y ys ih =>
    intro cur hc
    simp only [List.length_cons] at hu
    have h1 := ih (k + 1) (fun j a b => hu j (by omega) (by omega)) (cur ++ [lenVar k] ++ [posVar k]) (by
      intro n hn
      simp only [List.mem_append, List.mem_singleton] at hn
      rcases hn with (hn | hn) | hn
      · rcases hc n hn with h | ⟨j, hj, h⟩
        · exact .inl h
        · exact .inr ⟨j, by omega, h⟩
      · exact .inr ⟨k, by omega, .inl hn⟩
      · exact .inr ⟨k, by omega, .inr hn⟩)
    obtain ⟨ul, up⟩ := hu k (Nat.le_refl k) (by omega)
    have f1 : lenVar k ∈ (sliceVarsB (k + 1) ys r).free := vars_keep ys (k + 1) r _ ul fun j hj =>
      ⟨fun e => by have := lenVar_inj e; omega, len_ne_pos k j⟩
    have f2 : posVar k ∈ (sliceVarsB (k + 1) ys r).free := vars_keep ys (k + 1) r _ up fun j hj =>
      ⟨fun e => len_ne_pos j k e.symm, fun e => by have := posVar_inj e; omega⟩
    have c1 : lenVar k ∉ cur := by
      intro h
      rcases hc _ h with h | ⟨j, hj, h | h⟩
      · exact (hb _ h k).1 rfl
      · have := lenVar_inj h; omega
      · exact len_ne_pos k j h
    have c2 : posVar k ∉ cur := by
      intro h
      rcases hc _ h with h | ⟨j, hj, h | h⟩
      · exact (hb _ h k).2 rfl
      · exact len_ne_pos j k h.symm
      · have := posVar_inj h; omega
    have ne := len_ne_pos k k
    simp only [List.append_assoc, List.cons_append, List.nil_append] at h1
    simp [sliceVarsB, GoBlk.fine, free, c1, c2, f1, f2, ne, Ne.symm ne, h1]

theorem sound_slices (hn : c.g.slices.length > 0) (hx : ∀ x ∈ c.g.slices, idents x = [b!"q"])
    (hs : ∀ k, .slice k ∈ c.sql.stmt.slots → 1 ≤ k ∧ k ≤ c.g.slices.length)
    (ha : ∀ x ∈ c.args, idents x = [b!"q"]) (h : Good conf true r) : Sound conf (slicesB q c r) := by
  have hq := q_mem conf
  have h0 : b!"queryString" ∉ methodParams conf := fun h => (not_param h).1 rfl
  have h2 : b!"params" ∉ methodParams conf := fun h => (not_param h).2.1 rfl
  have h3 : b!"nstatic" ∉ methodParams conf := fun h => (not_param h).2.2.2.1 rfl
  obtain ⟨l1, l2, l3, l4, l5⟩ := loops_facts c.g.slices hx 1 r
  have hsl : ∀ x ∈ slotVars c.sql.stmt.slots, ∃ j, 1 ≤ j ∧ j < 1 + c.g.slices.length ∧ (x = lenVar j ∨ x = posVar j) := by
    intro x hx
    obtain ⟨k, hk, hx⟩ := slotVars_mem hx
    have := hs k hk
    exact ⟨k, this.1, by omega, hx⟩
  have hsum := sumVars_mem c.g.slices 1
  -- the assignments
  have key : ∃ A : GoBlk, assignsB [b!"params"] [] c.args (sliceLoopsB 1 c.g.slices r) = A ∧
      (∀ x ∈ A.free, (∃ j, 1 ≤ j ∧ j < 1 + c.g.slices.length ∧ (x = lenVar j ∨ x = posVar j)) ∨
        x = b!"params" ∨ x = b!"queryString" ∨ x ∈ methodParams conf) ∧
      b!"params" ∈ A.free ∧ b!"queryString" ∈ A.free ∧ (∀ j, 1 ≤ j → j < 1 + c.g.slices.length → posVar j ∈ A.free) ∧
      A.ends = true ∧ ∀ cur, A.fine cur = r.fine cur := by
    refine ⟨_, rfl, ?_⟩
    have hA : ∀ x ∈ (sliceLoopsB 1 c.g.slices r).free, (∃ j, 1 ≤ j ∧ j < 1 + c.g.slices.length ∧ (x = lenVar j ∨ x = posVar j)) ∨
        x = b!"params" ∨ x = b!"queryString" ∨ x ∈ methodParams conf := by
      intro x hx
      rcases l1 x hx with h' | h' | h' | h'
      · exact .inl h'
      · exact .inr (.inl h')
      · exact .inr (.inr (.inr (h' ▸ hq)))
      · rcases h.sub x h' with h' | h' | h'
        · exact .inr (.inr (.inr h'))
        · exact .inr (.inr (.inl h'))
        · exact .inr (.inl h'.2)
    unfold assignsB
    split
    · exact ⟨hA, l2 _ (h.params rfl), l2 _ h.query, l3, l4.trans h.ends, l5⟩
    · refine ⟨?_, by simp [free], List.mem_append_right _ (l2 _ h.query),
        fun j a b => List.mem_append_right _ (l3 j a b), l4.trans h.ends, l5⟩
      intro x hx
      simp only [free, List.mem_append, List.mem_singleton] at hx
      rcases hx with (hx | hx) | hx
      · exact .inr (.inl hx)
      · obtain ⟨a, hm, hx⟩ := List.mem_flatMap.1 hx
        rw [ha a hm] at hx
        simp only [List.mem_singleton] at hx
        exact .inr (.inr (.inr (hx ▸ hq)))
      · exact hA x hx
  obtain ⟨A, hA, a1, a2, a3, a4, a5, a6⟩ := key
  simp only [slicesB, hA]
  -- what follows the variables
  have body : ∃ B : GoBlk, (GoBlk.stmt [] [] (line b!")") (declB q c
        (.decl true [b!"params"] (b!"nstatic" :: sumVars 1 c.g.slices) []
          (line (b!"params := make([]interface{}, nstatic" ++ (sliceSum 1 c.g.slices ++ b!")"))) A))) = B ∧
      (∀ x ∈ B.free, (∃ j, 1 ≤ j ∧ j < 1 + c.g.slices.length ∧ (x = lenVar j ∨ x = posVar j)) ∨ x = b!"nstatic" ∨
        x ∈ methodParams conf) ∧ b!"nstatic" ∈ B.free ∧
      (∀ j, 1 ≤ j → j < 1 + c.g.slices.length → lenVar j ∈ B.free ∧ posVar j ∈ B.free) ∧ B.ends = true ∧
      ∀ cur, (∀ n ∈ cur, n ∈ methodParams conf ++ [b!"nstatic"] ∨ ∃ j, n = lenVar j ∨ n = posVar j) → B.fine cur = true := by
    refine ⟨_, rfl, ?_, ?_, ?_, a5, ?_⟩
    · intro x hx
      simp only [declB, free, List.nil_append, List.mem_append, List.mem_filter, List.mem_cons, hsum] at hx
      simp only [List.contains_cons, List.contains_nil, Bool.or_false, Bool.not_eq_true', beq_eq_false_iff_ne] at hx
      rcases hx with hx | ⟨((hx | ⟨j, h4, h5, h6⟩) | ⟨hx, hn1⟩), hn2⟩
      · exact .inl (hsl x hx)
      · exact .inr (.inl hx)
      · exact .inl ⟨j, h4, h5, .inl h6⟩
      · rcases a1 x hx with h' | h' | h' | h'
        · exact .inl h'
        · exact absurd h' hn1
        · exact absurd h' hn2
        · exact .inr (.inr h')
    · simp [declB, free]
    · intro j h4 h5
      have e1 : lenVar j ≠ b!"queryString" := by simp [lenVar]
      have e2 : posVar j ≠ b!"queryString" := by simp [posVar]
      have e3 : posVar j ≠ b!"params" := by simp [posVar]
      have e4 : lenVar j ∈ sumVars 1 c.g.slices := (hsum _).2 ⟨j, h4, h5, rfl⟩
      simp [declB, free, e1, e2, e3, e4, a4 j h4 h5]
    · intro cur hc
      have fresh : ∀ n, n ∉ methodParams conf → n ≠ b!"nstatic" → plainName n → n ∉ cur := by
        intro n f1 f2 f3 hm
        rcases hc n hm with h' | ⟨j, h' | h'⟩
        · rcases List.mem_append.1 h' with h' | h'
          · exact f1 h'
          · simp only [List.mem_singleton] at h'; exact f2 h'
        · exact (f3 j).1 h'
        · exact (f3 j).2 h'
      have c0 := fresh b!"queryString" h0 (by decide) (plain_of (by decide) (by decide))
      have c1 := fresh b!"params" h2 (by decide) (plain_of (by decide) (by decide))
      have hf := h.fine (cur ++ [b!"queryString"] ++ [b!"params"]) (by
        intro n hn hm
        have hne : n ∉ methodParams conf := fun hp => (not_param hp).2.2.2.2.2 hn
        simp only [List.mem_append, List.mem_singleton] at hm
        rcases hm with (hm | rfl) | rfl
        · refine fresh n hne ?_ ?_ hm
          · rintro rfl; revert hn; decide
          · simp only [laterNames, List.mem_cons, List.not_mem_nil, or_false] at hn
            rcases hn with rfl | rfl | rfl | rfl | rfl | rfl | rfl <;> exact plain_of (by decide) (by decide)
        · revert hn; decide
        · revert hn; decide)
      simp only [List.append_assoc, List.cons_append, List.nil_append] at hf
      simp [declB, GoBlk.fine, free, c0, c1, a2, a3, a6, hf]
  obtain ⟨B, hB, b1, b2, b3, b4, b5⟩ := body
  rw [show ∀ B' : GoBlk, B' = B → (GoBlk.decl false [b!"nstatic"] [] []
    (List.append (α := Char) (line b!"var (") (line (List.append (α := Char) b!"nstatic = " (List.append (α := Char) (intText c.g.num) b!" // number of static parameters"))))
    (sliceVarsB 1 c.g.slices B')) = GoBlk.decl false [b!"nstatic"] [] []
    (List.append (α := Char) (line b!"var (") (line (List.append (α := Char) b!"nstatic = " (List.append (α := Char) (intText c.g.num) b!" // number of static parameters"))))
    (sliceVarsB 1 c.g.slices B) from fun B' h => h ▸ rfl]
  case a => exact hB
  have vf := vars_free c.g.slices hx 1 B
  have hnp : plainName b!"nstatic" := plain_of (by decide) (by decide)
  refine ⟨?_, ?_, ?_⟩
  · intro x hx
    simp [free] at hx
    rcases vf x hx.1 with h' | h' | ⟨h', _⟩ | ⟨h', h''⟩
    · exact h' ▸ hq
    · exact absurd h' hx.2
    · exact absurd rfl h'
    · rcases b1 x h' with ⟨j, g1, g2, g3⟩ | g | g
      · have := h'' j g1 g2
        rcases g3 with g3 | g3
        · exact absurd g3 this.1
        · exact absurd g3 this.2
      · exact absurd g hx.2
      · exact g
  · simp only [GoBlk.ends, vars_ends, b4]
  · have f1 : b!"nstatic" ∈ (sliceVarsB 1 c.g.slices B).free := vars_keep _ _ _ _ b2 fun j _ => hnp j
    have f2 := vars_fine c.g.slices 1 B (methodParams conf ++ [b!"nstatic"]) (by
      intro x hx
      rcases List.mem_append.1 hx with hx | hx
      · exact param_plain hx
      · simp only [List.mem_singleton] at hx; exact hx ▸ hnp) b3 b5 (methodParams conf ++ [b!"nstatic"]) (fun n hn => .inl hn)
    simp [GoBlk.fine, h3, f1, f2]

/-- The method as a whole. -/
theorem sound_method {s : List Imp} (hu : Usable q t c) : Sound conf (methodB conf s q t c) := by
  have g := good_after (conf := conf) (s := s) hu
  unfold methodB queryStringB
  split
  · next hs =>
    obtain ⟨b1, b2, b3, b4⟩ := hu.batch hs
    have hno : ∀ k, ¬ (.slice k ∈ c.sql.stmt.slots ∨ .slice k ∈ c.sql.tail.slots) := by
      intro k hk
      have := hu.slots k hk
      rw [b1] at this
      simp at this
      omega
    have hp : passes q c = decide (c.args.length > 0) := by simp [passes, b1, b2, hs]
    rw [hp] at g
    exact sound_batch (no_slotVars fun k hk => hno k (.inl hk)) (no_slotVars fun k hk => hno k (.inr hk)) b3 b4 g
  · next hs =>
    have hs : isInsertOrUpdateSlice q = false := by simpa using hs
    split
    · next hn =>
      have hp : passes q c = true := by simp [passes, hn]
      rw [hp] at g
      exact sound_slices hn hu.slices (fun k hk => hu.slots k (.inl hk)) (hu.args hs) g
    · next hn =>
      have hno : ∀ k, ¬ (.slice k ∈ c.sql.stmt.slots ∨ .slice k ∈ c.sql.tail.slots) := by
        intro k hk
        have := hu.slots k hk
        omega
      have n1 := no_slotVars fun k hk => hno k (.inl hk)
      have n2 := no_slotVars fun k hk => hno k (.inr hk)
      split
      · next f hf =>
        have hp : passes q c = true := by simp [passes, hf]
        rw [hp] at g
        exact sound_filtered n1 n2 f g
      · next hf =>
        have hp : passes q c = false := by
          have : c.g.slices = [] := List.length_eq_zero_iff.1 (by omega)
          simp [passes, hf, hs, this]
        rw [hp] at g
        exact sound_plain n1 g

end

end Verif.Generator.Scoped
