import Verif.Command.Model
import Verif.Analysis.PropsWhere

/- C52: the names of the output files. -/
namespace Verif.Command
open Verif.Analysis Verif.Config

/-! ### Formats -/

/-- `pre%spost` with no other `%`. -/
def Format (f pre post : Bytes) : Prop := f = pre ++ '%' :: 's' :: post ∧ '%' ∉ pre ∧ '%' ∉ post

theorem hasInfix_split {p s : Bytes} (h : hasInfix p s = true) (hp : p ≠ []) : ∃ a b, s = a ++ p ++ b := by
  induction s with
  | nil =>
    simp only [hasInfix, decide_eq_true_eq] at h
    exact absurd (List.length_eq_zero_iff.1 h) hp
  | cons c cs ih =>
    rw [hasInfix, Bool.or_eq_true] at h
    rcases h with h | h
    · obtain ⟨t, ht⟩ := List.isPrefixOf_iff_prefix.1 h
      exact ⟨[], t, by simp [ht]⟩
    · obtain ⟨a, b, he⟩ := ih h
      exact ⟨c :: a, b, by rw [he]; rfl⟩

theorem hasInfix_of {p : Bytes} (a b : Bytes) : hasInfix p (a ++ p ++ b) = true := by
  induction a with
  | nil =>
    cases p with
    | nil => cases b <;> simp [hasInfix]
    | cons x xs =>
      have : (x :: xs).isPrefixOf (x :: xs ++ b) = true := List.isPrefixOf_iff_prefix.2 ⟨b, rfl⟩
      simp only [List.nil_append, List.cons_append, hasInfix, Bool.or_eq_true]
      exact .inl this
  | cons c cs ih => simp only [List.cons_append, hasInfix, Bool.or_eq_true]; exact .inr ih

/-- **C52** After validation the format has one verb, `%s`, and no other `%`. -/
theorem C52_valid {f g : Bytes} (h : validFormat f = .ok g) : ∃ pre post, Format g pre post := by
  simp only [validFormat] at h
  split at h
  · rename_i h0
    cases h
    exact ⟨[], f, rfl, by simp, List.count_eq_zero.1 h0⟩
  · rename_i h0
    split at h
    · cases h
    · rename_i h1
      cases h
      have h1 : ¬ f.count '%' > 1 ∧ ¬ hasInfix b!"%s" f = false := not_or.1 h1
      obtain ⟨a, b, rfl⟩ := hasInfix_split (p := b!"%s") (s := f) (by simpa using h1.2) (by simp)
      refine ⟨a, b, by simp, ?_⟩
      have hc : a.count '%' + 1 + b.count '%' ≤ 1 := by
        have := h1.1
        simp [List.count_append] at this
        omega
      exact ⟨List.count_eq_zero.1 (by omega), List.count_eq_zero.1 (by omega)⟩

/-- **C52** Every such format is accepted as it is; a text without `%` gets the verb in front; all else is
refused. -/
theorem C52_accepted (f g : Bytes) :
    validFormat f = .ok g ↔ ('%' ∉ f ∧ g = '%' :: 's' :: f) ∨ (g = f ∧ ∃ pre post, Format f pre post) := by
  constructor
  · intro h
    obtain ⟨pre, post, hg⟩ := C52_valid h
    simp only [validFormat] at h
    split at h
    · rename_i h0; cases h; exact .inl ⟨List.count_eq_zero.1 h0, rfl⟩
    · split at h
      · cases h
      · cases h; exact .inr ⟨rfl, pre, post, hg⟩
  · rintro (⟨h, rfl⟩ | ⟨rfl, pre, post, rfl, h1, h2⟩)
    · rw [validFormat]; simp [List.count_eq_zero.2 h]
    · have hc : (pre ++ '%' :: 's' :: post).count '%' = 1 := by
        simp [List.count_append, List.count_eq_zero.2 h1, List.count_eq_zero.2 h2]
      have hi : hasInfix b!"%s" (pre ++ '%' :: 's' :: post) = true := by
        have := hasInfix_of (p := b!"%s") pre post
        simpa using this
      rw [validFormat]; simp [hc, hi]

/-! ### Names -/

theorem sprintf_format {pre post : Bytes} (h : '%' ∉ pre) (arg : Bytes) :
    sprintf (pre ++ '%' :: 's' :: post) arg = pre ++ arg ++ post := by
  induction pre with
  | nil => simp [sprintf]
  | cons c cs ih =>
    have hc : c ≠ '%' := fun e => h (by simp [e])
    have ih := ih fun hm => h (List.mem_cons_of_mem _ hm)
    have hs : ∀ x, sprintf (c :: x) arg = c :: sprintf x arg := by
      intro x
      rw [sprintf]
      intro cs e
      exact absurd e hc
    rw [List.cons_append, hs, ih]; rfl

/-- The name ends in `.go`. -/
def IsGo (s : Bytes) : Prop := ∃ t, s = t ++ b!".go"

theorem hasSuffix_iff (s suf : Bytes) : hasSuffix s suf = true ↔ ∃ t, s = t ++ suf := by
  rw [hasSuffix, List.isSuffixOf_iff_suffix]
  constructor
  · rintro ⟨t, h⟩; exact ⟨t, h.symm⟩
  · rintro ⟨t, h⟩; exact ⟨t, h.symm⟩

theorem trimSuffix_go (n : Bytes) : trimSuffix (n ++ b!".go") b!".go" = n := by
  have : hasSuffix (n ++ b!".go") b!".go" = true := (hasSuffix_iff _ _).2 ⟨n, rfl⟩
  rw [trimSuffix, if_pos this]
  simp

/-- **C52** The output name of `n.go` is `n` in place of the verb, with `.go` unless it ends so already. -/
theorem C52_name {f pre post : Bytes} (h : Format f pre post) (n : Bytes) :
    (IsGo (pre ++ n ++ post) → outName f (n ++ b!".go") = pre ++ n ++ post) ∧
    (¬ IsGo (pre ++ n ++ post) → outName f (n ++ b!".go") = pre ++ n ++ post ++ b!".go") := by
  obtain ⟨rfl, h1, _⟩ := h
  simp only [outName, trimSuffix_go, sprintf_format h1]
  constructor
  · intro hg; rw [if_pos ((hasSuffix_iff _ _).2 hg)]
  · intro hg; rw [if_neg fun e => hg ((hasSuffix_iff _ _).1 e)]

theorem outName_go {f pre post : Bytes} (h : Format f pre post) (n : Bytes) : IsGo (outName f (n ++ b!".go")) := by
  obtain ⟨h1, h2⟩ := C52_name h n
  by_cases hg : IsGo (pre ++ n ++ post)
  · rw [h1 hg]; exact hg
  · rw [h2 hg]; exact ⟨_, rfl⟩

/-- **C52** Two files of a directory get the same output name exactly if one is named like the other's output
without its `.go`. -/
theorem C52_same_name {f pre post : Bytes} (h : Format f pre post) (a b : Bytes) :
    outName f (a ++ b!".go") = outName f (b ++ b!".go") ↔
      a = b ∨ (¬ IsGo (pre ++ b ++ post) ∧ a ++ post = b ++ post ++ b!".go") ∨
        (¬ IsGo (pre ++ a ++ post) ∧ b ++ post = a ++ post ++ b!".go") := by
  obtain ⟨a1, a2⟩ := C52_name h a
  obtain ⟨b1, b2⟩ := C52_name h b
  by_cases ha : IsGo (pre ++ a ++ post) <;> by_cases hb : IsGo (pre ++ b ++ post)
  · rw [a1 ha, b1 hb]
    simp only [ha, hb, not_true, false_and, or_false]
    simp
  · rw [a1 ha, b2 hb]
    simp only [ha, hb, not_true, false_and, not_false_eq_true, true_and, or_false]
    simp only [List.append_assoc, List.append_cancel_left_eq]
    refine ⟨.inr, ?_⟩
    rintro (rfl | h)
    · exact absurd ha hb
    · exact h
  · rw [a2 ha, b1 hb]
    simp only [ha, hb, not_true, false_and, not_false_eq_true, true_and, false_or]
    simp only [List.append_assoc, List.append_cancel_left_eq]
    refine ⟨fun h => .inr h.symm, ?_⟩
    rintro (rfl | h)
    · exact absurd hb ha
    · exact h.symm
  · rw [a2 ha, b2 hb]
    simp only [ha, hb, not_false_eq_true, true_and]
    simp only [List.append_assoc, List.append_cancel_left_eq]
    refine ⟨fun h => .inl (List.append_cancel_right h), ?_⟩
    rintro (rfl | h | h)
    · rfl
    · refine absurd ⟨pre ++ b ++ post, ?_⟩ ha
      rw [List.append_assoc, h]; simp
    · refine absurd ⟨pre ++ a ++ post, ?_⟩ hb
      rw [List.append_assoc, h]; simp

theorem isGo_post {post : Bytes} (hl : 3 ≤ post.length) (x : Bytes) : IsGo (x ++ post) ↔ IsGo post := by
  constructor
  · rintro ⟨t, h⟩
    have hs : b!".go" <:+ x ++ post := ⟨t, h.symm⟩
    have hp : post <:+ x ++ post := ⟨x, rfl⟩
    obtain ⟨t', h'⟩ := List.suffix_of_suffix_length_le hs hp (by simpa using hl)
    exact ⟨t', h'.symm⟩
  · rintro ⟨t, rfl⟩
    exact ⟨x ++ t, by simp⟩

/-- **C52** If at least three characters follow the verb, different files get different names. -/
theorem C52_distinct_partial {f pre post : Bytes} (h : Format f pre post) (hl : 3 ≤ post.length) (a b : Bytes)
    (e : outName f (a ++ b!".go") = outName f (b ++ b!".go")) : a = b := by
  rcases (C52_same_name h a b).1 e with h | ⟨hn, h⟩ | ⟨hn, h⟩
  · exact h
  · exfalso
    rw [isGo_post hl] at hn
    exact hn ((isGo_post hl a).1 ⟨_, h⟩)
  · exfalso
    rw [isGo_post hl] at hn
    exact hn ((isGo_post hl b).1 ⟨_, h⟩)

/-- **C52** Then a file is its own output exactly for the format `%s.go`. -/
theorem C52_own_partial {f pre post : Bytes} (h : Format f pre post) (hl : 3 ≤ post.length) (n : Bytes) :
    outName f (n ++ b!".go") = n ++ b!".go" ↔ f = b!"%s.go" := by
  obtain ⟨h1, h2⟩ := C52_name h n
  constructor
  · intro e
    have key : pre ++ n ++ post = n ++ b!".go" := by
      by_cases hg : IsGo (pre ++ n ++ post)
      · rw [← h1 hg]; exact e
      · rw [h2 hg] at e
        have := congrArg List.length e
        simp at this
        omega
    have hlen := congrArg List.length key
    simp at hlen
    have hp : pre = [] := List.length_eq_zero_iff.1 (by omega)
    subst hp
    have hpost : post = b!".go" := by simpa using key
    rw [h.1, hpost]; rfl
  · rintro rfl
    have hg : hasSuffix (n ++ b!".go") b!".go" = true := (hasSuffix_iff _ _).2 ⟨n, rfl⟩
    simp only [outName, trimSuffix_go]
    rw [show sprintf b!"%s.go" n = n ++ b!".go" from rfl, if_pos hg]

/-- **C52** In general: never when the format has characters in front of the verb other than those of `.go`. -/
theorem C52_own_char {f pre post : Bytes} (h : Format f pre post) (n : Bytes) (c : Char) (hc : c ∈ pre)
    (hd : c ∉ b!".go") (e : outName f (n ++ b!".go") = n ++ b!".go") : False := by
  obtain ⟨h1, h2⟩ := C52_name h n
  have key : (pre ++ n ++ post).count c ≤ (n ++ b!".go").count c := by
    by_cases hg : IsGo (pre ++ n ++ post)
    · rw [← h1 hg, e]; exact Nat.le_refl _
    · rw [← e, h2 hg, List.count_append (l₂ := b!".go")]; omega
  have hp : 0 < pre.count c := List.count_pos_iff.2 hc
  have h0 : List.count c b!".go" = 0 := List.count_eq_zero.2 hd
  simp only [List.count_append] at key
  omega

/-! ### Paths -/

theorem splitAt_none {c : Char} {s : Bytes} (h : c ∉ s) : splitAt c s = [s] := by
  induction s with
  | nil => rfl
  | cons d ds ih =>
    have hd : d ≠ c := fun e => h (by simp [e])
    rw [splitAt, if_neg hd, ih fun hm => h (List.mem_cons_of_mem _ hm)]

/-- A name without `/` that ends in `.go` is put under the directory. -/
theorem join_go {dir : Path} {s : Bytes} (h : '/' ∉ s) (hg : IsGo s) : join dir s = dir ++ [s] := by
  obtain ⟨t, rfl⟩ := hg
  rw [join, splitAt_none h]
  simp only [List.foldl_cons, List.foldl_nil, cleanStep]
  rw [if_neg, if_neg]
  · intro e
    have := congrArg List.length e
    simp at this
  · rintro (e | e)
    · simp at e
    · have := congrArg List.length e
      simp at this

theorem outName_slash {f pre post n : Bytes} (h : Format f pre post) (hf : '/' ∉ f) (hn : '/' ∉ n) :
    '/' ∉ outName f (n ++ b!".go") := by
  obtain ⟨h1, h2⟩ := C52_name h n
  have hp : '/' ∉ pre ++ n ++ post := by
    rw [h.1] at hf
    simp only [List.mem_append, List.mem_cons, not_or] at hf ⊢
    exact ⟨⟨hf.1, hn⟩, hf.2.2.2⟩
  by_cases hg : IsGo (pre ++ n ++ post)
  · rw [h1 hg]; exact hp
  · rw [h2 hg]
    intro hm
    rcases List.mem_append.1 hm with hm | hm
    · exact hp hm
    · revert hm; decide

/-- **C52** A format without `/` puts the output next to the input. -/
theorem C52_dir {f pre post n : Bytes} (h : Format f pre post) (hf : '/' ∉ f) (hn : '/' ∉ n) (dir : Path) :
    outFilePath f dir (n ++ b!".go") = dir ++ [outName f (n ++ b!".go")] :=
  join_go (outName_slash h hf hn) (outName_go h n)

/-- **C52** Different inputs, of whichever directories, get different outputs. -/
theorem C52_paths_partial {f pre post : Bytes} (h : Format f pre post) (hl : 3 ≤ post.length) (hf : '/' ∉ f)
    {d e : Path} {a b : Bytes} (ha : '/' ∉ a) (hb : '/' ∉ b)
    (he : outFilePath f d (a ++ b!".go") = outFilePath f e (b ++ b!".go")) : d = e ∧ a = b := by
  rw [C52_dir h hf ha, C52_dir h hf hb] at he
  obtain ⟨h1, h2⟩ := List.append_inj' he rfl
  exact ⟨h1, C52_distinct_partial h hl a b (List.cons.inj h2).1⟩

/-- **C52** And no output is an input, if no input is named like an output. -/
theorem C52_inputs_partial {f pre post : Bytes} (h : Format f pre post) (hf : '/' ∉ f)
    {d e : Path} {a b : Bytes} (ha : '/' ∉ a) (hb : ∀ n, b ≠ pre ++ n ++ post ∧ b ≠ pre ++ n ++ post ++ b!".go") :
    outFilePath f d (a ++ b!".go") ≠ e ++ [b] := by
  intro he
  rw [C52_dir h hf ha] at he
  obtain ⟨_, h2⟩ := List.append_inj' he rfl
  have hn := (List.cons.inj h2).1
  obtain ⟨h1, h2⟩ := C52_name h a
  by_cases hg : IsGo (pre ++ a ++ post)
  · rw [h1 hg] at hn; exact (hb a).1 hn.symm
  · rw [h2 hg] at hn; exact (hb a).2 hn.symm

/-! ### Where it fails -/

/-- **C52** Accepted formats with which every file is overwritten by its own output. -/
theorem C52_not_own :
    ([b!"", b!"%s", b!".go", b!"%s.go"].map fun f =>
      (validFormat f).map fun g => outFilePath g [b!"src"] b!"user.go") =
    List.replicate 4 (.ok [b!"src", b!"user.go"]) := by decide +kernel

/-- **C52** An accepted format with which two files of a directory have the same output. -/
theorem C52_not_distinct :
    validFormat b!"gen_%s" = .ok b!"gen_%s" ∧
    outFilePath b!"gen_%s" [b!"src"] b!"user.go" = outFilePath b!"gen_%s" [b!"src"] b!"user.go.go" := by
  decide +kernel

/-- **C52** One with which two files of different directories have the same output. -/
theorem C52_not_dirs :
    validFormat b!"../%s_gen" = .ok b!"../%s_gen" ∧
    outFilePath b!"../%s_gen" [b!"src", b!"a"] b!"user.go" = [b!"src", b!"user_gen.go"] ∧
    outFilePath b!"../%s_gen" [b!"src", b!"b"] b!"user.go" = [b!"src", b!"user_gen.go"] := by
  decide +kernel

/-- **C52** With the default format an input may be the output of another. -/
theorem C52_not_inputs :
    outFilePath (defaultConfig.str .outputFileNameFormat).value [b!"src"] b!"user.go" =
      [b!"src"] ++ [b!"user_gosql.go"] := by decide +kernel

/-- The default format has the form the theorems ask for. -/
example : Format (defaultConfig.str .outputFileNameFormat).value [] b!"_gosql.go" ∧
    3 ≤ (b!"_gosql.go" : Bytes).length ∧ '/' ∉ (defaultConfig.str .outputFileNameFormat).value := by
  refine ⟨⟨rfl, by decide, by decide⟩, by decide, by decide⟩

example : outFilePath b!"gen_%s" [b!"src"] b!"user.go" = [b!"src", b!"gen_user.go"] ∧
    validFormat b!"%d" = .err .badFormat ∧ validFormat b!"%s%s" = .err .badFormat ∧
    validFormat b!"_x" = .ok b!"%s_x" := by decide +kernel

end Verif.Command
