import Verif.Generator.Trees

/- Property C89: how expressions are read.  The lemmas on the readers. -/
namespace Verif.Generator.Gram
open Verif.Analysis Verif.Postgres Verif.Generator.Lex Print

/-! ### What ends an expression -/

/-- What would continue a name or a type. -/
def cont0 : Tok → Bool
  | .punct c => c = '.' || c = '(' || c = '['
  | .word w => w = b!"varying" || w = b!"precision" || w = b!"with" || w = b!"without"
  | _ => false

def cont1 (t : Tok) : Bool := cont0 t || t = .cast
def cont2 (t : Tok) : Bool := cont1 t || match t with | .op o => isOther o | _ => false
def cont3 (t : Tok) : Bool := cont2 t || match t with
  | .word w => w = b!"not" || w = b!"like" || w = b!"ilike" || w = b!"similar" || w = b!"between" || w = b!"in"
  | _ => false
def cont4 (t : Tok) : Bool := cont3 t || match t with | .op o => isCmp o | _ => false
def cont5 (t : Tok) : Bool := cont4 t || match t with | .word w => w = b!"is" | _ => false
def cont6 (t : Tok) : Bool := cont5 t || match t with | .word w => w = b!"and" | _ => false
def cont7 (t : Tok) : Bool := cont6 t || match t with | .word w => w = b!"or" | _ => false

/-- What is left does not continue. -/
def Ends (c : Tok → Bool) : List Tok → Prop
  | [] => True
  | t :: _ => c t = false

theorem Ends.mono {c d : Tok → Bool} (h : ∀ t, c t = true → d t = true) {r : List Tok} (e : Ends d r) : Ends c r := by
  cases r with
  | nil => trivial
  | cons t r =>
    simp only [Ends] at *
    cases hc : c t with
    | false => rfl
    | true => rw [h t hc] at e; cases e

theorem Ends.to0 {r : List Tok} (e : Ends cont1 r) : Ends cont0 r := e.mono (by simp +contextual [cont1])
theorem Ends.to1 {r : List Tok} (e : Ends cont2 r) : Ends cont1 r := e.mono (by simp +contextual [cont2])
theorem Ends.to2 {r : List Tok} (e : Ends cont3 r) : Ends cont2 r := e.mono (by simp +contextual [cont3])
theorem Ends.to3 {r : List Tok} (e : Ends cont4 r) : Ends cont3 r := e.mono (by simp +contextual [cont4])
theorem Ends.to4 {r : List Tok} (e : Ends cont5 r) : Ends cont4 r := e.mono (by simp +contextual [cont5])
theorem Ends.to5 {r : List Tok} (e : Ends cont6 r) : Ends cont5 r := e.mono (by simp +contextual [cont6])
theorem Ends.to6 {r : List Tok} (e : Ends cont7 r) : Ends cont6 r := e.mono (by simp +contextual [cont7])

/-! ### Types -/

/-- No point. -/
def NoDot : List Tok → Prop
  | .punct c :: _ => c ≠ '.'
  | _ => True

theorem dots_dotted : ∀ (l : List Tok) (r : List Tok), (∀ t ∈ l, isLabel t = true) → NoDot r →
    dots (dotted l ++ r) = (l, r)
  | [], r, _, hr => by
    show dots r = ([], r)
    cases r with
    | nil => simp [dots]
    | cons t r =>
      cases t with
      | punct c =>
        have : c ≠ '.' := hr
        cases r <;> simp [dots, this]
      | _ => simp [dots]
  | t :: l, r, hl, hr => by
    have ih := dots_dotted l r (fun x hx => hl x (.tail _ hx)) hr
    show dots (.punct '.' :: t :: (dotted l ++ r)) = _
    simp [dots, hl t (.head _), ih]

theorem dots_inv : ∀ (n : Nat) (ts : List Tok), ts.length ≤ n →
    ts = dotted (dots ts).1 ++ (dots ts).2 ∧ ∀ t ∈ (dots ts).1, isLabel t = true
  | 0, ts, h => by
    have : ts = [] := List.length_eq_zero_iff.1 (by omega)
    subst this; simp [dots, dotted]
  | n + 1, ts, h => by
    unfold dots
    split
    · next t r =>
      split
      · next hl =>
        have ih := dots_inv n r (by simp at h; omega)
        constructor
        · simp only [dotted, List.cons_append, List.cons.injEq, true_and]
          exact ih.1
        · intro x hx
          rcases List.mem_cons.1 hx with rfl | hx
          · exact hl
          · exact ih.2 x hx
      · exact ⟨rfl, by simp⟩
    · exact ⟨rfl, by simp⟩

theorem mods_append : ∀ (n : Nat) (ts a r rest : List Tok), ts.length ≤ n → mods ts = some (a, r) →
    mods (ts ++ rest) = some (a, r ++ rest) ∧ ts = a ++ r
  | 0, ts, a, r, rest, h, hm => by
    have : ts = [] := List.length_eq_zero_iff.1 (by omega)
    subst this; simp [mods] at hm
  | n + 1, ts, a, r, rest, h, hm => by
    unfold mods at hm
    split at hm
    · simp only [Option.some.injEq, Prod.mk.injEq] at hm
      obtain ⟨rfl, rfl⟩ := hm
      simp [mods]
    · next x r' =>
      rw [Option.map_eq_some_iff] at hm
      obtain ⟨y, hy, he⟩ := hm
      simp only [Prod.mk.injEq] at he
      obtain ⟨rfl, rfl⟩ := he
      have ih := mods_append n r' y.1 y.2 rest (by simp at h; omega) hy
      exact ⟨by simp [mods, ih.1], by simp [← ih.2]⟩
    · cases hm

/-- Not the second word of a name. -/
def NoSecond : List Tok → Prop
  | .word v :: _ => v ≠ b!"precision" ∧ v ≠ b!"varying"
  | _ => True

theorem second_nil (w : Bytes) (r : List Tok) (h : NoSecond r) : second w r = ([], r) := by
  unfold second
  split
  · next v r' =>
    have h : v ≠ b!"precision" ∧ v ≠ b!"varying" := h
    rw [if_neg]
    rintro (⟨_, hv⟩ | ⟨_, hv⟩)
    · exact h.1 hv
    · exact h.2 hv
  · rfl

theorem second_inv (w : Bytes) (ts : List Tok) : ts = (second w ts).1 ++ (second w ts).2 ∧
    ((second w ts).1 = [] ∨ (∃ v, (second w ts).1 = [.word v]) ∧ ∀ R, second w ((second w ts).1 ++ R) = ((second w ts).1, R)) := by
  unfold second
  split
  · next v r' =>
    split
    · next h => exact ⟨rfl, .inr ⟨⟨v, rfl⟩, fun R => by simp [h]⟩⟩
    · exact ⟨rfl, .inl rfl⟩
  · exact ⟨rfl, .inl rfl⟩

/-- No time zone. -/
def NoZone : List Tok → Prop
  | .word v :: _ => v ≠ b!"with" ∧ v ≠ b!"without"
  | _ => True

theorem zone_nil (w : Bytes) (r : List Tok) (h : NoZone r) : zone w r = ([], r) := by
  unfold zone
  split
  · next a b c r' =>
    have h : a ≠ b!"with" ∧ a ≠ b!"without" := h
    rw [if_neg]
    rintro ⟨_, hv | hv, _⟩
    · exact h.1 hv
    · exact h.2 hv
  · rfl

theorem zone_inv (w : Bytes) (ts : List Tok) : ts = (zone w ts).1 ++ (zone w ts).2 ∧
    ((zone w ts).1 = [] ∨ (∃ a l, (zone w ts).1 = .word a :: l ∧ (a = b!"with" ∨ a = b!"without")) ∧
      ∀ R, zone w ((zone w ts).1 ++ R) = ((zone w ts).1, R)) := by
  unfold zone
  split
  · next a b c r' =>
    split
    · next h => exact ⟨rfl, .inr ⟨⟨a, _, rfl, h.2.1⟩, fun R => by simp [h]⟩⟩
    · exact ⟨rfl, .inl rfl⟩
  · exact ⟨rfl, .inl rfl⟩

/-- No bracket. -/
def NoBracket : List Tok → Prop
  | .punct c :: _ => c ≠ '['
  | _ => True

/-- Brackets, any number of times. -/
inductive Dims : List Tok → Prop
  | nil : Dims []
  | cons {l : List Tok} : Dims l → Dims (.punct '[' :: .punct ']' :: l)

theorem dims_dims {l r : List Tok} (h : Dims l) (hr : NoBracket r) : dims (l ++ r) = (l, r) := by
  induction h with
  | nil =>
    show dims r = ([], r)
    unfold dims
    split
    · exact absurd rfl (show ('[' : Char) ≠ '[' from hr)
    · rfl
  | cons _ ih => simp [dims, ih]

theorem dims_inv : ∀ (n : Nat) (ts : List Tok), ts.length ≤ n → ts = (dims ts).1 ++ (dims ts).2 ∧ Dims (dims ts).1
  | 0, ts, h => by
    have : ts = [] := List.length_eq_zero_iff.1 (by omega)
    subst this; exact ⟨by simp [dims], by simp [dims]; exact .nil⟩
  | n + 1, ts, h => by
    unfold dims
    split
    · next r =>
      have ih := dims_inv n r (by simp at h; omega)
      exact ⟨by simp; exact ih.1, .cons ih.2⟩
    · exact ⟨rfl, .nil⟩

theorem optMods_nil {r : List Tok} (h : ∀ s, r ≠ .punct '(' :: s) : optMods r = some ([], r) := by
  unfold optMods
  split
  · next s => exact absurd rfl (h s)
  · rfl

/-- A type is read to its end. -/
theorem typeName_append {ts a rest : List Tok} (h : typeName ts = some (a, [])) (hr : Ends cont0 rest) :
    typeName (ts ++ rest) = some (a, rest) ∧ a = ts := by
  cases ts with
  | nil => cases h
  | cons t r =>
    simp only [typeName] at h
    split at h
    · next hw =>
      generalize hw' : wordOf t = w at h
      rw [Option.map_eq_some_iff] at h
      obtain ⟨m, hm, he⟩ := h
      simp only [Prod.mk.injEq] at he
      obtain ⟨rfl, he⟩ := he
      obtain ⟨hd, hdl⟩ := dots_inv _ r (Nat.le_refl _)
      obtain ⟨hs, hs'⟩ := second_inv w (dots r).2
      obtain ⟨hz, hz'⟩ := zone_inv w m.2
      obtain ⟨ha, ha'⟩ := dims_inv _ (zone w m.2).2 (Nat.le_refl _)
      rw [he, List.append_nil] at ha
      generalize (dots r).1 = D at *
      generalize hDr : (dots r).2 = Dr at *
      generalize (second w Dr).1 = S at *
      generalize (second w Dr).2 = Sr at *
      generalize (zone w m.2).1 = Z at *
      generalize (zone w m.2).2 = Zr at *
      rw [← ha] at ha' ⊢
      generalize Zr = A at *
      -- what is left after each part
      have hrest : ∀ c s, rest = .punct c :: s → c ≠ '.' ∧ c ≠ '(' ∧ c ≠ '[' := by
        rintro c s rfl
        simpa [Ends, cont0, not_or, and_assoc] using hr
      have hword : ∀ v s, rest = .word v :: s → v ≠ b!"varying" ∧ v ≠ b!"precision" ∧ v ≠ b!"with" ∧ v ≠ b!"without" := by
        rintro v s rfl
        simpa [Ends, cont0, not_or, and_assoc] using hr
      have k1 : NoBracket rest := by
        cases rest with
        | nil => trivial
        | cons t s => cases t with
          | punct c => exact (hrest c s rfl).2.2
          | _ => trivial
      have k2 : dims (A ++ rest) = (A, rest) := dims_dims ha' k1
      have k3 : NoZone (A ++ rest) := by
        cases ha' with
        | nil => cases rest with
          | nil => trivial
          | cons t s => cases t with
            | word v => exact (hword v s rfl).2.2
            | _ => trivial
        | cons _ => trivial
      have k4 : zone w (Z ++ (A ++ rest)) = (Z, A ++ rest) := by
        rcases hz' with rfl | ⟨_, hz'⟩
        · exact zone_nil w _ k3
        · exact hz' _
      have k5 : optMods (Sr ++ rest) = some (m.1, Z ++ (A ++ rest)) ∧ Sr = m.1 ++ m.2 ∧
          (m.1 = [] ∨ ∃ l, m.1 = .punct '(' :: l) := by
        unfold optMods at hm
        split at hm
        · next r' =>
          rw [Option.map_eq_some_iff] at hm
          obtain ⟨y, hy, rfl⟩ := hm
          have := mods_append _ r' y.1 y.2 rest (Nat.le_refl _) hy
          refine ⟨?_, by simp [this.2], .inr ⟨_, rfl⟩⟩
          simp only [List.cons_append, optMods, this.1, Option.map_some, Option.some.injEq, Prod.mk.injEq, true_and]
          rw [hz, List.append_assoc]
        · next hno =>
          simp only [Option.some.injEq] at hm
          subst hm
          refine ⟨?_, rfl, .inl rfl⟩
          show optMods (Sr ++ rest) = _
          rw [optMods_nil]
          · simp only at hz
            rw [hz, List.append_assoc]
          · intro s hs
            cases Sr with
            | nil => exact (hrest '(' s hs).2.1 rfl
            | cons t s' =>
              simp only [List.cons_append, List.cons.injEq] at hs
              exact hno s' (by rw [hs.1])
      have k6 : NoSecond (Sr ++ rest) := by
        rw [k5.2.1]
        rcases k5.2.2 with h0 | ⟨l, h0⟩
        · rw [h0, hz]
          rcases hz' with rfl | ⟨⟨a, l, rfl, hz'⟩, _⟩
          · cases ha' with
            | nil => cases rest with
              | nil => trivial
              | cons t s => cases t with
                | word v => exact ⟨(hword v s rfl).2.1, (hword v s rfl).1⟩
                | _ => trivial
            | cons _ => trivial
          · rcases hz' with rfl | rfl
            · exact ⟨by decide, by decide⟩
            · exact ⟨by decide, by decide⟩
        · rw [h0]; trivial
      have k7 : second w (S ++ (Sr ++ rest)) = (S, Sr ++ rest) := by
        rcases hs' with rfl | ⟨_, hs'⟩
        · exact second_nil w _ k6
        · exact hs' _
      have k8 : NoDot (Dr ++ rest) := by
        rw [hs]
        rcases hs' with rfl | ⟨⟨v, rfl⟩, _⟩
        · show NoDot (Sr ++ rest)
          rw [k5.2.1]
          rcases k5.2.2 with h0 | ⟨l, h0⟩
          · rw [h0, hz]
            rcases hz' with rfl | ⟨⟨a, l, rfl, hz'⟩, _⟩
            · cases ha' with
              | nil => cases rest with
                | nil => trivial
                | cons t s => cases t with
                  | punct c => exact (hrest c s rfl).1
                  | _ => trivial
              | cons _ => exact (by decide : '[' ≠ '.')
            · trivial
          · rw [h0]; exact (by decide : '(' ≠ '.')
        · trivial
      have k9 : dots (dotted D ++ (Dr ++ rest)) = (D, Dr ++ rest) := dots_dotted D _ hdl k8
      rw [hs, List.append_assoc] at k9
      constructor
      · rw [hd]
        simp only [List.cons_append, List.append_assoc, typeName, hw, if_true, hw', k9, hs, k7, k5.1, Option.map_some,
          k4, k2]
      · rw [hd, hs, k5.2.1, hz]
    · cases h

end Verif.Generator.Gram
