import Verif.Command.Props
import Verif.Analysis.Query

/- C65: which types become targets. -/
namespace Verif.Command
open Verif.Analysis Verif.Config

/-! ### Statement -/

/-- The type is declared in the file at package level, by a spec with a name of a target, and neither the
declaration nor the spec has the directive. -/
def Declares {μ : Type} (ds : List (Decl μ)) (m : μ) : Prop :=
  ∃ d ∈ ds, d.isType = true ∧ ignored d.doc = false ∧
    ∃ s ∈ d.specs, isTarget s.name = true ∧ ignored s.doc = false ∧ s.named = some m

theorem mem_specHits {μ : Type} (ss : List (TypeSpec μ)) (m : μ) :
    m ∈ specHits ss ↔ ∃ s ∈ ss, isTarget s.name = true ∧ ignored s.doc = false ∧ s.named = some m := by
  induction ss with
  | nil => simp [specHits]
  | cons s ss ih =>
    rw [specHits]
    cases ht : isTarget s.name <;> cases hi : ignored s.doc <;> cases hn : s.named <;>
      simp [ih, ht, hi, hn, @eq_comm _ m]

theorem mem_declHits {μ : Type} (ds : List (Decl μ)) (m : μ) : m ∈ declHits ds ↔ Declares ds m := by
  induction ds with
  | nil => simp [declHits, Declares]
  | cons d ds ih =>
    rw [declHits]
    cases ht : d.isType <;> cases hi : ignored d.doc <;> simp [ih, Declares, ht, hi, mem_specHits]

theorem mem_searchFiles {μ ε : Type} {filter : Path → Bytes → Bool} {ss : List (List (Decl μ))}
    {fs : List (Path × Bytes)} {r : List (File μ)} (h : searchFiles (ε := ε) filter ss fs = .ok r)
    (f : File μ) :
    f ∈ r ↔ ∃ (i : Nat) (ds : List (Decl μ)), ss[i]? = some ds ∧ fs[i]? = some (f.dir, f.base) ∧ filter f.dir f.base = true ∧
      f.hits = declHits ds ∧ f.hits ≠ [] := by
  induction ss generalizing fs r with
  | nil => cases h; simp
  | cons s ss ih =>
    cases fs with
    | nil => cases h
    | cons x fs =>
      obtain ⟨dir, base⟩ := x
      simp only [searchFiles, Res.map_eq_ok] at h
      obtain ⟨l, hl, rfl⟩ := h
      have ih := ih hl
      have hsplit : (∃ (i : Nat) (ds : List (Decl μ)), (s :: ss)[i]? = some ds ∧ ((dir, base) :: fs)[i]? = some (f.dir, f.base) ∧
          filter f.dir f.base = true ∧ f.hits = declHits ds ∧ f.hits ≠ []) ↔
          (dir = f.dir ∧ base = f.base ∧ filter f.dir f.base = true ∧ f.hits = declHits s ∧ f.hits ≠ []) ∨ f ∈ l := by
        rw [ih]
        constructor
        · rintro ⟨i, ds, h1, h2, h3⟩
          cases i with
          | zero => simp at h1 h2; subst h1; exact .inl ⟨h2.1, h2.2, h3⟩
          | succ i => exact .inr ⟨i, ds, by simpa using h1, by simpa using h2, h3⟩
        · rintro (⟨h1, h2, h3⟩ | ⟨i, ds, h1, h2, h3⟩)
          · exact ⟨0, s, rfl, by simp [h1, h2], h3⟩
          · exact ⟨i + 1, ds, by simpa using h1, by simpa using h2, h3⟩
      rw [hsplit]
      by_cases hf : filter dir base = true
      · by_cases hd : (declHits s).length > 0
        · simp only [hf, Bool.not_true, Bool.false_eq_true, if_false, hd, if_true, List.mem_cons]
          refine or_congr ⟨?_, ?_⟩ Iff.rfl
          · rintro rfl; exact ⟨rfl, rfl, hf, rfl, List.length_pos_iff.1 hd⟩
          · rintro ⟨rfl, rfl, _, h, _⟩; obtain ⟨a, b, c⟩ := f; simp at h; simp [h]
        · simp only [hf, Bool.not_true, Bool.false_eq_true, if_false, hd]
          refine ⟨.inr, ?_⟩
          rintro (⟨_, _, _, h, hne⟩ | h)
          · rw [h] at hne; exact absurd (List.length_pos_iff.2 hne) hd
          · exact h
      · have hf' : filter dir base = false := by simpa using hf
        simp only [hf', Bool.not_false, if_true]
        refine ⟨.inr, ?_⟩
        rintro (⟨rfl, rfl, h, _⟩ | h)
        · exact absurd h hf
        · exact h

theorem mem_searchPkgs {μ ε : Type} {filter : Path → Bytes → Bool} {ls : List (Loaded μ)}
    {r : List (Package μ)} (h : searchPkgs (ε := ε) filter ls = .ok r) (p : Package μ) :
    p ∈ r ↔ ∃ l ∈ ls, p.name = l.name ∧ searchFiles (ε := ε) filter l.syntaxes l.files = .ok p.files ∧ p.files ≠ [] := by
  induction ls generalizing r with
  | nil => cases h; simp
  | cons l ls ih =>
    simp only [searchPkgs, Res.bind_eq_ok, Res.map_eq_ok] at h
    obtain ⟨fs, hfs, r', hr, rfl⟩ := h
    have ih := ih hr
    simp only [List.mem_cons, exists_eq_or_imp, ← ih]
    by_cases hl : fs.length > 0
    · rw [if_pos hl, List.mem_cons]
      refine or_congr ⟨?_, ?_⟩ Iff.rfl
      · rintro rfl; exact ⟨rfl, hfs, List.length_pos_iff.1 hl⟩
      · rintro ⟨h1, h2, _⟩
        rw [hfs] at h2
        cases p
        cases h2
        simp at h1
        rw [h1]
    · rw [if_neg hl]
      refine ⟨.inr, ?_⟩
      rintro (⟨_, h2, h3⟩ | h)
      · rw [hfs] at h2
        cases h2
        exact absurd (List.length_pos_iff.2 h3) hl
      · exact h

/-- **C65** The types found in a package are those declared in one of its files that passes the filter. -/
theorem C65_found {μ ε : Type} {filter : Path → Bytes → Bool} {ls : List (Loaded μ)} {ps : List (Package μ)}
    (h : searchPkgs (ε := ε) filter ls = .ok ps) (pkg : Bytes) (dir : Path) (base : Bytes) (m : μ) :
    (∃ p ∈ ps, p.name = pkg ∧ ∃ f ∈ p.files, f.dir = dir ∧ f.base = base ∧ m ∈ f.hits) ↔
    ∃ l ∈ ls, l.name = pkg ∧ ∃ (i : Nat) (ds : List (Decl μ)), l.syntaxes[i]? = some ds ∧ l.files[i]? = some (dir, base) ∧
      filter dir base = true ∧ Declares ds m := by
  constructor
  · rintro ⟨p, hp, rfl, f, hf, rfl, rfl, hm⟩
    obtain ⟨l, hl, hn, hfs, _⟩ := (mem_searchPkgs h p).1 hp
    obtain ⟨i, ds, h1, h2, h3, h4, _⟩ := (mem_searchFiles hfs f).1 hf
    exact ⟨l, hl, hn.symm, i, ds, h1, h2, h3, (mem_declHits ds m).1 (h4 ▸ hm)⟩
  · rintro ⟨l, hl, rfl, i, ds, h1, h2, h3, h4⟩
    have hall : ∀ {ls : List (Loaded μ)} {ps}, searchPkgs (ε := ε) filter ls = .ok ps → ∀ l ∈ ls,
        ∃ fs, searchFiles (ε := ε) filter l.syntaxes l.files = .ok fs := by
      intro ls
      induction ls with
      | nil => simp
      | cons x ls ih =>
        intro ps h l hl
        simp only [searchPkgs, Res.bind_eq_ok, Res.map_eq_ok] at h
        obtain ⟨fs, hfs, r', hr, rfl⟩ := h
        rcases List.mem_cons.1 hl with rfl | hl
        · exact ⟨fs, hfs⟩
        · exact ih hr l hl
    obtain ⟨fs, hfs⟩ := hall h l hl
    have hm := (mem_declHits ds m).2 h4
    have hne : declHits ds ≠ [] := List.ne_nil_of_mem hm
    have hf : (⟨dir, base, declHits ds⟩ : File μ) ∈ fs :=
      (mem_searchFiles hfs _).2 ⟨i, ds, h1, h2, h3, rfl, hne⟩
    exact ⟨⟨l.name, fs⟩, (mem_searchPkgs h _).2 ⟨l, hl, rfl, hfs, List.ne_nil_of_mem hf⟩, rfl, _, hf, rfl, rfl, hm⟩

/-- **C65** Each file has a target and each package a file, so that no empty output is written. -/
theorem C65_nonempty {μ ε : Type} {filter : Path → Bytes → Bool} {ls : List (Loaded μ)} {ps : List (Package μ)}
    (h : searchPkgs (ε := ε) filter ls = .ok ps) {p : Package μ} (hp : p ∈ ps) :
    p.files ≠ [] ∧ ∀ f ∈ p.files, f.hits ≠ [] := by
  obtain ⟨l, _, _, hfs, hne⟩ := (mem_searchPkgs h p).1 hp
  refine ⟨hne, fun f hf => ?_⟩
  obtain ⟨i, ds, _, _, _, _, h5⟩ := (mem_searchFiles hfs f).1 hf
  exact h5

/-- **C65** The search panics exactly if a package has more syntax trees than files. -/
theorem C65_panic {μ ε : Type} (filter : Path → Bytes → Bool) (ls : List (Loaded μ)) :
    searchPkgs (ε := ε) filter ls = .panic ↔ ∃ l ∈ ls, l.files.length < l.syntaxes.length := by
  have hf : ∀ (ss : List (List (Decl μ))) (fs : List (Path × Bytes)),
      (searchFiles (ε := ε) filter ss fs = .panic ∧ fs.length < ss.length) ∨
      (∃ r, searchFiles (ε := ε) filter ss fs = .ok r) ∧ ss.length ≤ fs.length := by
    intro ss
    induction ss with
    | nil => intro fs; exact .inr ⟨⟨[], by cases fs <;> rfl⟩, by simp⟩
    | cons s ss ih =>
      intro fs
      cases fs with
      | nil => exact .inl ⟨rfl, by simp⟩
      | cons x fs =>
        obtain ⟨dir, base⟩ := x
        rcases ih fs with ⟨h1, h2⟩ | ⟨⟨r, h1⟩, h2⟩
        · exact .inl ⟨by rw [searchFiles, h1]; rfl, by simpa using h2⟩
        · exact .inr ⟨⟨_, by rw [searchFiles, h1]; rfl⟩, by simpa using h2⟩
  have hp : ∀ ls : List (Loaded μ), (searchPkgs (ε := ε) filter ls = .panic ∧
      ∃ l ∈ ls, l.files.length < l.syntaxes.length) ∨
      (∃ r, searchPkgs (ε := ε) filter ls = .ok r) ∧ ∀ l ∈ ls, l.syntaxes.length ≤ l.files.length := by
    intro ls
    induction ls with
    | nil => exact .inr ⟨⟨[], rfl⟩, by simp⟩
    | cons l ls ih =>
      rcases hf l.syntaxes l.files with ⟨h1, h2⟩ | ⟨⟨r, h1⟩, h2⟩
      · exact .inl ⟨by rw [searchPkgs, h1]; rfl, l, List.mem_cons_self, h2⟩
      · rcases ih with ⟨h3, x, hx, hlt⟩ | ⟨⟨r', h3⟩, h4⟩
        · exact .inl ⟨by rw [searchPkgs, h1, Res.bind, h3]; rfl, x, List.mem_cons_of_mem _ hx, hlt⟩
        · refine .inr ⟨⟨_, by rw [searchPkgs, h1, Res.bind, h3]; rfl⟩, ?_⟩
          intro x hx
          rcases List.mem_cons.1 hx with rfl | hx
          · exact h2
          · exact h4 x hx
  constructor
  · intro h
    rcases hp ls with ⟨_, h2⟩ | ⟨⟨r, h1⟩, _⟩
    · exact h2
    · rw [h] at h1; cases h1
  · rintro ⟨l, hl, hlt⟩
    rcases hp ls with ⟨h1, _⟩ | ⟨_, h2⟩
    · exact h1
    · exact absurd (h2 l hl) (by omega)

/-- **C65** With files or regular expressions given, a file passes if it is one of them or matches one; else
every file does. -/
theorem C65_filter (inputs : List (Path × Bytes)) (regexps : List (Path → Bytes → Bool)) (dir : Path)
    (base : Bytes) :
    fileFilter inputs regexps dir base = true ↔
      (inputs = [] ∧ regexps = []) ∨ (dir, base) ∈ inputs ∨ ∃ r ∈ regexps, r dir base = true := by
  unfold fileFilter
  by_cases h : inputs.length = 0 ∧ regexps.length = 0
  · rw [if_pos h]
    simp [List.length_eq_zero_iff.1 h.1, List.length_eq_zero_iff.1 h.2]
  · rw [if_neg h]
    have h' : ¬ (inputs = [] ∧ regexps = []) := fun e => h (by simp [e.1, e.2])
    simp only [Bool.or_eq_true, List.any_eq_true, decide_eq_true_eq, h', false_or]
    refine or_congr ⟨?_, fun h => ⟨_, h, rfl⟩⟩ Iff.rfl
    rintro ⟨x, hx, rfl⟩
    exact hx

/-! ### Names -/

/-- A word, ignoring the case of ASCII letters. -/
def Begins (w s : Bytes) : Prop := (s.take w.length).map Char.toLower = w

theorem foldPrefix_ascii {w s : Bytes} (hs : 'ſ' ∉ s) : foldPrefix w s = true ↔ Begins w s := by
  induction w generalizing s with
  | nil => simp [foldPrefix, Begins]
  | cons p w ih =>
    cases s with
    | nil => simp [foldPrefix, Begins]
    | cons c s =>
      have hc : c ≠ 'ſ' := fun e => hs (by simp [e])
      have ih := ih (s := s) fun hm => hs (List.mem_cons_of_mem _ hm)
      simp only [Begins] at ih
      simp [foldPrefix, Begins, foldEq, ih, hc]

/-- **C65** A name is that of a target exactly if it begins with one of the five words, in any case. -/
theorem C65_name_partial {s : Bytes} (hs : 'ſ' ∉ s) :
    isTarget s = true ↔ Begins b!"select" s ∨ Begins b!"insert" s ∨ Begins b!"update" s ∨ Begins b!"delete" s ∨
      Begins b!"filter" s := by
  simp [isTarget, foldPrefix_ascii hs]

/-- **C65** A name with the letter `ſ` is found, but the analysis knows no such query: it panics. -/
theorem C65_not_name : isTarget b!"ſelectUser" = true ∧ isTarget b!"InſertUser" = true ∧
    queryKind b!"ſelectUser" = .panic ∧ queryKind b!"InſertUser" = .panic := by decide +kernel

/-- **C65** Any type with such a name is found, not only structs; the directive in a comment of its own line
counts wherever the text occurs in it. -/
example : declHits [{ specs := [{ name := b!"FilterFunc", named := some 1 }] },
    { doc := [b!"// see gosql:ignored.md"], specs := [{ name := b!"SelectUser", named := some 2 }] },
    { specs := [{ name := b!"User", named := some 3 }, { name := b!"updateUser", named := some 4 },
      { name := b!"DeleteAlias", named := none },
      { name := b!"SELECTx", doc := [b!"//gosql:ignore"], named := some 5 }] },
    { isType := false, specs := [] }] = [1, 4] := by decide +kernel

end Verif.Command
