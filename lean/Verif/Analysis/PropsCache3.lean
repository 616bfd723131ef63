import Verif.Analysis.PropsCache2
/- C72: types that have the same text are the same if named types that have the same name are. -/
namespace Verif.Analysis

open Verif

/-- The named type that a record type is made from. -/
def Ty.core : Ty → Option Ty
  | .named i u => some (.named i u)
  | .ptr e | .slice e | .array _ e | .func _ e => e.core
  | _ => none

/-- Go's identifiers and the paths of packages have none of these characters. -/
def clean (s : Bytes) : Prop := ∀ c ∈ s, c ≠ '*' ∧ c ≠ '[' ∧ c ≠ ']' ∧ c ≠ '('

structure CleanInfo (i : NamedInfo) : Prop where
  name : clean i.name ∧ '.' ∉ i.name
  path : ∀ p, i.pkg = some p → clean p.path

/-- The package path, if any, and the name. -/
def NamedInfo.ref (i : NamedInfo) : Option Bytes × Bytes := (i.pkg.map (·.path), i.name)

def refText : Option Bytes × Bytes → Bytes
  | (some p, n) => p ++ b!"." ++ n
  | (none, n) => n

theorem cacheKey_named (i : NamedInfo) (u : Ty) : cacheKey (.named i u) = some (refText i.ref) := by
  rw [cacheKey, NamedInfo.ref]
  cases i.pkg <;> rfl

theorem split_at {c : Char} {a a' b b' : Bytes} (h : c ∉ a) (h' : c ∉ a') (e : a ++ c :: b = a' ++ c :: b') :
    a = a' ∧ b = b' := by
  rcases List.append_eq_append_iff.1 e with ⟨x, hx, hy⟩ | ⟨x, hx, hy⟩
  · cases x with
    | nil => simp at hx hy; exact ⟨hx.symm, hy⟩
    | cons y ys =>
      obtain ⟨rfl, -⟩ := List.cons.inj hy
      exact absurd (by rw [hx]; simp) h'
  · cases x with
    | nil => simp at hx hy; exact ⟨hx, hy.symm⟩
    | cons y ys =>
      obtain ⟨rfl, -⟩ := List.cons.inj hy
      exact absurd (by rw [hx]; simp) h

theorem split_at_last {c : Char} {a a' b b' : Bytes} (h : c ∉ b) (h' : c ∉ b') (e : a ++ c :: b = a' ++ c :: b') :
    a = a' ∧ b = b' := by
  rcases List.append_eq_append_iff.1 e with ⟨x, hx, hy⟩ | ⟨x, hx, hy⟩
  · cases x with
    | nil => simp at hx hy; exact ⟨hx.symm, hy⟩
    | cons y ys =>
      obtain ⟨rfl, hz⟩ := List.cons.inj hy
      exact absurd (by rw [hz]; simp) h
  · cases x with
    | nil => simp at hx hy; exact ⟨hx, hy.symm⟩
    | cons y ys =>
      obtain ⟨rfl, hz⟩ := List.cons.inj hy
      exact absurd (by rw [hz]; simp) h'

theorem refText_inj {i i' : NamedInfo} (h : CleanInfo i) (h' : CleanInfo i') (e : refText i.ref = refText i'.ref) :
    i.ref = i'.ref := by
  have hn := h.name.2
  have hn' := h'.name.2
  revert e
  rw [NamedInfo.ref, NamedInfo.ref]
  cases i.pkg with
  | none =>
    cases i'.pkg with
    | none => intro e; rw [show i.name = i'.name from e]
    | some p' => intro e; exact absurd (by rw [show i.name = _ from e]; simp [refText]) hn
  | some p =>
    cases i'.pkg with
    | none => intro e; exact absurd (by rw [show i'.name = _ from e.symm]; simp [refText]) hn'
    | some p' =>
      intro e
      obtain ⟨h1, h2⟩ := split_at_last hn hn' (by simpa [refText] using e)
      simp [h1, h2]

theorem refText_clean {i : NamedInfo} (h : CleanInfo i) : clean (refText i.ref) := by
  have hn := h.name.1
  have hp := h.path
  rw [NamedInfo.ref]
  cases hk : i.pkg with
  | none => exact hn
  | some p =>
    intro c hc
    simp only [Option.map_some, refText, List.append_assoc, List.mem_append, List.mem_cons, List.not_mem_nil, or_false] at hc
    rcases hc with hc | rfl | hc
    · exact hp p hk c hc
    · decide
    · exact hn c hc

theorem itoa_clean (n : Nat) : ∀ c ∈ itoa n, c ≠ ']' := by
  intro c hc e
  subst e
  have := Nat.isDigit_of_mem_toDigits (by decide) (by decide) hc
  revert this; decide

/-- The ways in which a type can have a text. -/
theorem cacheKey_shape {t : Ty} {k : Bytes} (h : cacheKey t = some k) :
    (∃ i u, t = .named i u ∧ k = refText i.ref) ∨
    (∃ e s, t = .ptr e ∧ cacheKey e = some s ∧ k = '*' :: s) ∨
    (∃ e s, t = .slice e ∧ cacheKey e = some s ∧ k = '[' :: ([] ++ ']' :: s)) ∨
    (∃ n e s, t = .array n e ∧ cacheKey e = some s ∧ k = '[' :: (itoa n ++ ']' :: s)) ∨
    (∃ e s, t = .func ⟨1, 1, true⟩ e ∧ cacheKey e = some s ∧ k = b!"func(" ++ (s ++ b!") error")) := by
  cases t with
  | named i u => rw [cacheKey_named] at h; exact .inl ⟨i, u, rfl, (Option.some.inj h).symm⟩
  | ptr e =>
    rw [cacheKey] at h
    obtain ⟨s, h1, h2⟩ := Option.map_eq_some_iff.1 h
    exact .inr (.inl ⟨e, s, rfl, h1, h2.symm⟩)
  | slice e =>
    rw [cacheKey] at h
    obtain ⟨s, h1, h2⟩ := Option.map_eq_some_iff.1 h
    exact .inr (.inr (.inl ⟨e, s, rfl, h1, h2.symm⟩))
  | array n e =>
    rw [cacheKey] at h
    obtain ⟨s, h1, h2⟩ := Option.map_eq_some_iff.1 h
    exact .inr (.inr (.inr (.inl ⟨n, e, s, rfl, h1, by rw [← h2]; simp⟩)))
  | func hd p =>
    rw [cacheKey] at h
    split at h
    · rename_i hh
      obtain ⟨s, h1, h2⟩ := Option.map_eq_some_iff.1 h
      obtain ⟨a, b, c⟩ := hd
      obtain ⟨rfl, rfl, h3⟩ := hh
      have h3 : c = true := h3
      subst h3
      exact .inr (.inr (.inr (.inr ⟨p, s, rfl, h1, by rw [← h2]; simp⟩)))
    · cases h
  | basic => cases h
  | map => cases h
  | chan => cases h
  | iface => cases h
  | struct => cases h

theorem refText_head {i : NamedInfo} (h : CleanInfo i) {c : Char} {s : Bytes} (e : refText i.ref = c :: s) :
    c ≠ '*' ∧ c ≠ '[' := by
  have := refText_clean h c (by rw [e]; simp)
  exact ⟨this.1, this.2.1⟩

theorem refText_func {i : NamedInfo} (h : CleanInfo i) {s : Bytes} : refText i.ref ≠ b!"func(" ++ s := by
  intro e
  have := refText_clean h '(' (by rw [e]; simp)
  exact this.2.2.2 rfl

theorem nonempty_itoa (n : Nat) (s s' : Bytes) : itoa n ++ ']' :: s ≠ [] ++ ']' :: s' := by
  intro e
  have := (split_at (fun h => itoa_clean n _ h rfl) (by simp) e).1
  exact itoa_ne_nil n this

/-- Types of one text are made in the same way from named types of one text. -/
theorem cacheKey_inj (m : Nat) : ∀ (t t' : Ty) (k : Bytes), k.length ≤ m → cacheKey t = some k →
    cacheKey t' = some k →
    (∀ i u, t.core = some (.named i u) → CleanInfo i) → (∀ i u, t'.core = some (.named i u) → CleanInfo i) →
    ∃ i u i' u', t.core = some (.named i u) ∧ t'.core = some (.named i' u') ∧ i.ref = i'.ref ∧
      (Ty.named i u = Ty.named i' u' → t = t') := by
  induction m with
  | zero =>
    intro t t' k hk h h' c c'
    obtain rfl : k = [] := List.length_eq_zero_iff.mp (by omega)
    rcases cacheKey_shape h with ⟨i, u, rfl, e⟩ | ⟨_, _, _, _, e⟩ | ⟨_, _, _, _, e⟩ | ⟨_, _, _, _, _, e⟩ | ⟨_, _, _, _, e⟩
    · rcases cacheKey_shape h' with ⟨i', u', rfl, e'⟩ | ⟨_, _, _, _, e'⟩ | ⟨_, _, _, _, e'⟩ | ⟨_, _, _, _, _, e'⟩ | ⟨_, _, _, _, e'⟩
      · exact ⟨i, u, i', u', rfl, rfl, refText_inj (c i u rfl) (c' i' u' rfl) (by rw [← e, ← e']), id⟩
      all_goals cases e'
    all_goals cases e
  | succ m ih =>
    intro t t' k hk h h' c c'
    rcases cacheKey_shape h with ⟨i, u, rfl, e⟩ | ⟨t, s, rfl, hs, e⟩ | ⟨t, s, rfl, hs, e⟩ | ⟨n, t, s, rfl, hs, e⟩ | ⟨t, s, rfl, hs, e⟩
    · have ci := c i u rfl
      rcases cacheKey_shape h' with ⟨i', u', rfl, e'⟩ | ⟨_, _, _, _, e'⟩ | ⟨_, _, _, _, e'⟩ | ⟨_, _, _, _, _, e'⟩ | ⟨_, _, _, _, e'⟩
      · exact ⟨i, u, i', u', rfl, rfl, refText_inj ci (c' i' u' rfl) (by rw [← e, ← e']), id⟩
      · exact absurd rfl (refText_head ci (e.symm.trans e')).1
      · exact absurd rfl (refText_head ci (e.symm.trans e')).2
      · exact absurd rfl (refText_head ci (e.symm.trans e')).2
      · exact absurd (e.symm.trans e') (refText_func ci)
    · rcases cacheKey_shape h' with ⟨i', u', rfl, e'⟩ | ⟨t', s', rfl, hs', e'⟩ | ⟨_, _, _, _, e'⟩ | ⟨_, _, _, _, _, e'⟩ | ⟨_, _, _, _, e'⟩
      · exact absurd rfl (refText_head (c' i' u' rfl) (e'.symm.trans e)).1
      · obtain rfl : s = s' := (List.cons.inj (e.symm.trans e')).2
        obtain ⟨i, u, i', u', h1, h2, h3, h4⟩ := ih t t' s (by rw [e] at hk; simp at hk; omega) hs hs' c c'
        exact ⟨i, u, i', u', h1, h2, h3, fun x => by rw [h4 x]⟩
      · exact absurd (List.cons.inj (e.symm.trans e')).1 (by decide)
      · exact absurd (List.cons.inj (e.symm.trans e')).1 (by decide)
      · exact absurd (List.cons.inj (e.symm.trans e')).1 (by decide)
    · rcases cacheKey_shape h' with ⟨i', u', rfl, e'⟩ | ⟨_, _, _, _, e'⟩ | ⟨t', s', rfl, hs', e'⟩ | ⟨n', t', s', rfl, hs', e'⟩ | ⟨_, _, _, _, e'⟩
      · exact absurd rfl (refText_head (c' i' u' rfl) (e'.symm.trans e)).2
      · exact absurd (List.cons.inj (e.symm.trans e')).1 (by decide)
      · obtain rfl : s = s' := (split_at (by simp) (by simp) (List.cons.inj (e.symm.trans e')).2).2
        obtain ⟨i, u, i', u', h1, h2, h3, h4⟩ := ih t t' s (by rw [e] at hk; simp at hk; omega) hs hs' c c'
        exact ⟨i, u, i', u', h1, h2, h3, fun x => by rw [h4 x]⟩
      · exact absurd (List.cons.inj (e'.symm.trans e)).2 (nonempty_itoa _ _ _)
      · exact absurd (List.cons.inj (e.symm.trans e')).1 (by decide)
    · rcases cacheKey_shape h' with ⟨i', u', rfl, e'⟩ | ⟨_, _, _, _, e'⟩ | ⟨t', s', rfl, hs', e'⟩ | ⟨n', t', s', rfl, hs', e'⟩ | ⟨_, _, _, _, e'⟩
      · exact absurd rfl (refText_head (c' i' u' rfl) (e'.symm.trans e)).2
      · exact absurd (List.cons.inj (e.symm.trans e')).1 (by decide)
      · exact absurd (List.cons.inj (e.symm.trans e')).2 (nonempty_itoa _ _ _)
      · obtain ⟨hn, rfl⟩ := split_at (fun h => itoa_clean n _ h rfl) (fun h => itoa_clean n' _ h rfl)
          (List.cons.inj (e.symm.trans e')).2
        obtain rfl : n = n' := itoa_inj hn
        obtain ⟨i, u, i', u', h1, h2, h3, h4⟩ := ih t t' s (by rw [e] at hk; simp at hk; omega) hs hs' c c'
        exact ⟨i, u, i', u', h1, h2, h3, fun x => by rw [h4 x]⟩
      · exact absurd (List.cons.inj (e.symm.trans e')).1 (by decide)
    · rcases cacheKey_shape h' with ⟨i', u', rfl, e'⟩ | ⟨_, _, _, _, e'⟩ | ⟨_, _, _, _, e'⟩ | ⟨_, _, _, _, _, e'⟩ | ⟨t', s', rfl, hs', e'⟩
      · exact absurd (e'.symm.trans e) (refText_func (c' i' u' rfl))
      · exact absurd (List.cons.inj (e.symm.trans e')).1 (by decide)
      · exact absurd (List.cons.inj (e.symm.trans e')).1 (by decide)
      · exact absurd (List.cons.inj (e.symm.trans e')).1 (by decide)
      · obtain rfl : s = s' := List.append_cancel_right (List.append_cancel_left (e.symm.trans e'))
        obtain ⟨i, u, i', u', h1, h2, h3, h4⟩ := ih t t' s (by rw [e] at hk; simp at hk; omega) hs hs' c c'
        exact ⟨i, u, i', u', h1, h2, h3, fun x => by rw [h4 x]⟩

/-- **C72** The first condition holds if there is one type to each name of a package: the text under which a
record type is kept is the text of no other type. -/
theorem C72_text {js : List Job}
    (hc : ∀ t, RecordType js t → ∀ i u, t.core = some (.named i u) → CleanInfo i)
    (h1 : ∀ t t', RecordType js t → RecordType js t' → ∀ i u i' u', t.core = some (.named i u) →
      t'.core = some (.named i' u') → i.ref = i'.ref → Ty.named i u = Ty.named i' u') :
    ∀ t t', RecordType js t → RecordType js t' → cacheKey t ≠ none → cacheKey t = cacheKey t' → t = t' := by
  intro t t' ht ht' hk e
  cases h : cacheKey t with
  | none => exact absurd h hk
  | some k =>
    obtain ⟨i, u, i', u', x, x', y, z⟩ := cacheKey_inj _ t t' k (Nat.le_refl _) h (e ▸ h) (hc t ht) (hc t' ht')
    exact z (h1 t t' ht ht' i u i' u' x x' y)

/-- The conditions hold: one type by value, by pointer, in a slice, in arrays of two lengths and as argument of
a function. -/
theorem C72_text_example : [userTy, .ptr userTy, .slice userTy, .slice (.ptr userTy), .array 2 userTy, .array 3 userTy,
      .func ⟨1, 1, true⟩ (.ptr userTy)].map cacheKey =
    [some b!"p.User", some b!"*p.User", some b!"[]p.User", some b!"[]*p.User", some b!"[2]p.User", some b!"[3]p.User",
      some b!"func(*p.User) error"] := by decide +kernel

end Verif.Analysis
