import Verif.Command.PropsNames

/- C53: what a run does to the files. -/
namespace Verif.Command
open Verif.Analysis Verif.Config

section
variable {ε μ α τ : Type} (S : Steps ε μ α τ)

/-! ### Statement -/

/-- Two lists of the same length whose members correspond. -/
inductive Pairs {α β : Type} (R : α → β → Prop) : List α → List β → Prop
  | nil : Pairs R [] []
  | cons {a b l r} : R a b → Pairs R l r → Pairs R (a :: l) (b :: r)

/-- The type was analysed and checked. -/
def Checked (m : μ) (t : τ) : Prop := ∃ a, S.analyze m = .ok a ∧ S.check a = .ok t

/-- The file, of a package of that name, has that output: the code of all its types. -/
def Generated (x : Bytes × File μ) (o : OutFile) : Prop :=
  o.path = outFilePath S.fmt x.2.dir x.2.base ∧
    ∃ ts, Pairs (Checked S) x.2.hits ts ∧ S.generate x.1 ts = .ok o.code

/-- The files of the packages, with the name of the package. -/
def filesOf (ps : List (Package μ)) : List (Bytes × File μ) :=
  ps.flatMap fun p => p.files.map fun f => (p.name, f)

/-- Every step before the files are written succeeded, for every type of every file. -/
def Succeeded (os : List OutFile) : Prop :=
  S.openDb = .ok () ∧ S.converters = .ok () ∧ ∃ ls ps, S.load = .ok ls ∧ searchPkgs S.filter ls = .ok (ε := ε) ps ∧
    Pairs (Generated S) (filesOf ps) os

/-! ### The plan -/

theorem targets_ok {ms : List μ} {ts : List τ} : targets S ms = .ok ts ↔ Pairs (Checked S) ms ts := by
  induction ms generalizing ts with
  | nil =>
    constructor
    · intro h; cases h; exact .nil
    · intro h; cases h; rfl
  | cons m ms ih =>
    simp only [targets, Res.bind_eq_ok, Res.map_eq_ok]
    constructor
    · rintro ⟨a, ha, t, ht, l, hl, rfl⟩
      exact .cons ⟨a, ha, ht⟩ (ih.1 hl)
    · intro h
      cases h with
      | cons h1 h2 =>
        obtain ⟨a, ha, ht⟩ := h1
        exact ⟨a, ha, _, ht, _, ih.2 h2, rfl⟩

theorem planFiles_ok {pkg : Bytes} {fs : List (File μ)} {os : List OutFile} :
    planFiles S pkg fs = .ok os ↔ Pairs (Generated S) (fs.map fun f => (pkg, f)) os := by
  induction fs generalizing os with
  | nil =>
    constructor
    · intro h; cases h; exact .nil
    · intro h; cases h; rfl
  | cons f fs ih =>
    simp only [planFiles, Res.bind_eq_ok, Res.map_eq_ok, List.map_cons]
    constructor
    · rintro ⟨ts, ht, c, hc, l, hl, rfl⟩
      exact .cons ⟨rfl, ts, (targets_ok S).1 ht, hc⟩ (ih.1 hl)
    · intro h
      cases h with
      | @cons _ o _ r h1 h2 =>
        obtain ⟨hp, ts, ht, hc⟩ := h1
        refine ⟨ts, (targets_ok S).2 ht, _, hc, _, ih.2 h2, ?_⟩
        rw [← hp]

theorem Pairs.append {α β : Type} {R : α → β → Prop} {a c : List α} {b d : List β} (h : Pairs R a b)
    (h' : Pairs R c d) : Pairs R (a ++ c) (b ++ d) := by
  induction h with
  | nil => exact h'
  | cons h1 _ ih => exact .cons h1 ih

theorem Pairs.split {α β : Type} {R : α → β → Prop} {a c : List α} {r : List β} (h : Pairs R (a ++ c) r) :
    ∃ b d, r = b ++ d ∧ Pairs R a b ∧ Pairs R c d := by
  induction a generalizing r with
  | nil => exact ⟨[], r, rfl, .nil, h⟩
  | cons x a ih =>
    cases h with
    | cons h1 h2 =>
      obtain ⟨b, d, rfl, hb, hd⟩ := ih h2
      exact ⟨_ :: b, d, rfl, .cons h1 hb, hd⟩

theorem planPkgs_ok {ps : List (Package μ)} {os : List OutFile} :
    planPkgs S ps = .ok os ↔ Pairs (Generated S) (filesOf ps) os := by
  induction ps generalizing os with
  | nil =>
    constructor
    · intro h; cases h; exact .nil
    · intro h; cases h; rfl
  | cons p ps ih =>
    simp only [planPkgs, Res.bind_eq_ok, Res.map_eq_ok, filesOf, List.flatMap_cons]
    constructor
    · rintro ⟨l, hl, r, hr, rfl⟩
      exact ((planFiles_ok S).1 hl).append (ih.1 hr)
    · intro h
      obtain ⟨l, r, rfl, hl, hr⟩ := h.split
      exact ⟨l, (planFiles_ok S).2 hl, r, ih.2 hr, rfl⟩

theorem plan_ok {os : List OutFile} : plan S = .ok os ↔ Succeeded S os := by
  simp only [plan, Res.bind_eq_ok, Succeeded, planPkgs_ok]
  constructor
  · rintro ⟨⟨⟩, h1, ls, h2, ps, h3, ⟨⟩, h4, h5⟩
    exact ⟨h1, h4, ls, ps, h2, h3, h5⟩
  · rintro ⟨h1, h4, ls, ps, h2, h3, h5⟩
    exact ⟨(), h1, ls, h2, ps, h3, (), h4, h5⟩

/-- **C53** If a step fails, or panics, for any type of any file, no file is touched, and the run fails. -/
theorem C53_nothing (F : Faults ε) (d : Disk) (h : ¬ ∃ os, Succeeded S os) :
    (run S F d).1 = d ∧ (run S F d).2 ≠ .ok () := by
  unfold run
  cases hp : plan S with
  | ok os => exact absurd ⟨os, (plan_ok S).1 hp⟩ h
  | err e => simp
  | panic => simp

/-- **C53** In particular if the analysis, the checker or the generator fails. -/
theorem C53_target (F : Faults ε) (d : Disk) {ls : List (Loaded μ)} {ps : List (Package μ)} (hl : S.load = .ok ls)
    (hs : searchPkgs S.filter ls = .ok (ε := ε) ps) {p : Package μ} (hp : p ∈ ps) {f : File μ} (hf : f ∈ p.files)
    (h : (∃ m ∈ f.hits, ∀ t, ¬ Checked S m t) ∨
      (∀ ts, Pairs (Checked S) f.hits ts → ∀ c, S.generate p.name ts ≠ .ok c)) :
    (run S F d).1 = d ∧ (run S F d).2 ≠ .ok () := by
  apply C53_nothing
  rintro ⟨os, _, _, ls', ps', hl', hs', hg⟩
  rw [hl] at hl'
  cases hl'
  rw [hs] at hs'
  cases hs'
  have key : ∀ {l : List (Bytes × File μ)} {os}, Pairs (Generated S) l os → ∀ x ∈ l, ∃ o, Generated S x o := by
    intro l os hg
    induction hg with
    | nil => simp
    | cons h1 _ ih =>
      intro x hx
      rcases List.mem_cons.1 hx with rfl | hx
      · exact ⟨_, h1⟩
      · exact ih x hx
  have hm : (p.name, f) ∈ filesOf ps := by
    simp only [filesOf, List.mem_flatMap, List.mem_map]
    exact ⟨p, hp, f, hf, rfl⟩
  obtain ⟨o, _, ts, ht, hc⟩ := key hg _ hm
  rcases h with ⟨m, hm, hn⟩ | h
  · have : ∀ {l : List μ} {ts}, Pairs (Checked S) l ts → ∀ x ∈ l, ∃ t, Checked S x t := by
      intro l ts hg
      induction hg with
      | nil => simp
      | cons h1 _ ih =>
        intro x hx
        rcases List.mem_cons.1 hx with rfl | hx
        · exact ⟨_, h1⟩
        · exact ih x hx
    obtain ⟨t, ht⟩ := this ht m hm
    exact hn t ht
  · exact h ts ht _ hc
end

/-! ### Writing -/

section
variable {ε : Type} (F : Faults ε) (format : Bytes → Res ε Bytes)

theorem set_same (d : Disk) (p : Path) (c : Option Bytes) : d.set p c p = c := by simp [Disk.set]
theorem set_other (d : Disk) {p q : Path} (c : Option Bytes) (h : q ≠ p) : d.set p c q = d q := by
  simp [Disk.set, h]

theorem cleanup_other (d : Disk) {p q : Path} (h : q ≠ p) : cleanup F d p q = d q := by
  unfold cleanup; split
  · rfl
  · exact set_other d _ h

theorem writeOutFile_other (d : Disk) (o : OutFile) {q : Path} (h : q ≠ o.path) :
    (writeOutFile F format d o).1 q = d q := by
  unfold writeOutFile
  cases F.create o.path with
  | some e => rfl
  | none =>
    simp only []
    cases format o.code with
    | err e => exact (cleanup_other F _ h).trans (set_other d _ h)
    | panic => exact set_other d _ h
    | ok bs =>
      simp only []
      cases F.copy o.path with
      | some ne =>
        exact (cleanup_other F _ h).trans ((set_other _ _ h).trans (set_other d _ h))
      | none =>
        simp only []
        cases F.sync o.path with
        | some e => exact (cleanup_other F _ h).trans ((set_other _ _ h).trans (set_other d _ h))
        | none => exact (set_other _ _ h).trans (set_other d _ h)

theorem writeOutFile_ok {d d' : Disk} {o : OutFile} (h : writeOutFile F format d o = (d', .ok ())) :
    ∃ bs, format o.code = .ok bs ∧ d' = d.set o.path (some bs) := by
  unfold writeOutFile at h
  cases hc : F.create o.path with
  | some e => rw [hc] at h; cases h
  | none =>
    rw [hc] at h
    simp only [] at h
    cases hf : format o.code with
    | err e => rw [hf] at h; cases h
    | panic => rw [hf] at h; cases h
    | ok bs =>
      rw [hf] at h
      simp only [] at h
      cases hp : F.copy o.path with
      | some ne => rw [hp] at h; cases h
      | none =>
        rw [hp] at h
        simp only [] at h
        cases hs : F.sync o.path with
        | some e => rw [hs] at h; cases h
        | none =>
          rw [hs] at h
          cases h
          refine ⟨bs, rfl, ?_⟩
          funext q
          by_cases hq : q = o.path
          · simp [Disk.set, hq]
          · simp [Disk.set, hq]

/-- After an error the file is not there, unless it could not be created or not be removed. -/
theorem writeOutFile_err {d d' : Disk} {o : OutFile} {e : ε} (h : writeOutFile F format d o = (d', .err e)) :
    (F.create o.path = some e ∧ d' = d) ∨
    (F.create o.path = none ∧ (F.remove o.path = false → d' o.path = none)) := by
  unfold writeOutFile at h
  cases hc : F.create o.path with
  | some e => rw [hc] at h; cases h; exact .inl ⟨rfl, rfl⟩
  | none =>
    right
    refine ⟨rfl, fun hr => ?_⟩
    have hcl : ∀ d : Disk, cleanup F d o.path o.path = none := by
      intro d; simp [cleanup, hr, Disk.set]
    rw [hc] at h
    simp only [] at h
    cases hf : format o.code with
    | err e => rw [hf] at h; cases h; exact hcl _
    | panic => rw [hf] at h; cases h
    | ok bs =>
      rw [hf] at h
      simp only [] at h
      cases hp : F.copy o.path with
      | some ne => rw [hp] at h; cases h; exact hcl _
      | none =>
        rw [hp] at h
        simp only [] at h
        cases hs : F.sync o.path with
        | some e => rw [hs] at h; cases h; exact hcl _
        | none => rw [hs] at h; cases h

theorem writeAll_other (d : Disk) (os : List OutFile) {q : Path} (h : ∀ o ∈ os, q ≠ o.path) :
    (writeAll F format d os).1 q = d q := by
  induction os generalizing d with
  | nil => rfl
  | cons o os ih =>
    have ho := writeOutFile_other F format d o (h o List.mem_cons_self)
    rw [writeAll]
    split
    · rename_i d1 he
      rw [he] at ho
      rw [ih d1 fun o ho => h o (List.mem_cons_of_mem _ ho)]
      exact ho
    · rename_i d1 r he
      rw [he] at ho
      exact ho

theorem writeAll_ok {d d' : Disk} {os : List OutFile} (h : writeAll F format d os = (d', .ok ()))
    {pre post : List OutFile} {o : OutFile} (he : os = pre ++ o :: post) (hn : ∀ x ∈ post, o.path ≠ x.path) :
    ∃ bs, format o.code = .ok bs ∧ d' o.path = some bs := by
  induction pre generalizing d os with
  | nil =>
    subst he
    rw [List.nil_append, writeAll] at h
    split at h
    · rename_i d1 h1
      obtain ⟨bs, hb, hd⟩ := writeOutFile_ok F format h1
      refine ⟨bs, hb, ?_⟩
      have := writeAll_other F format d1 post hn
      rw [h] at this
      simp only [] at this
      rw [this, hd, set_same]
    · rename_i d1 r hnot h1
      cases h
      exact (hnot rfl).elim
  | cons x pre ih =>
    subst he
    rw [List.cons_append, writeAll] at h
    split at h
    · exact ih h rfl
    · rename_i d1 r hnot h1
      cases h
      exact (hnot rfl).elim

theorem writeAll_err {d d' : Disk} {os : List OutFile} {r : Res ε Unit} (h : writeAll F format d os = (d', r))
    (hr : r ≠ .ok ()) :
    ∃ pre o post d1, os = pre ++ o :: post ∧ writeAll F format d pre = (d1, .ok ()) ∧
      writeOutFile F format d1 o = (d', r) := by
  induction os generalizing d with
  | nil => cases h; exact absurd rfl hr
  | cons o os ih =>
    rw [writeAll] at h
    split at h
    · rename_i d1 h1
      obtain ⟨pre, o', post, d2, rfl, h2, h3⟩ := ih h
      refine ⟨o :: pre, o', post, d2, rfl, ?_, h3⟩
      rw [writeAll, h1]
      exact h2
    · rename_i d1 r' hnot h1
      cases h
      exact ⟨[], o, os, d, rfl, rfl, h1⟩
end

section
variable {ε μ α τ : Type} (S : Steps ε μ α τ) (F : Faults ε)

/-- **C53** Whatever happens, no file is touched that is not the output of a file with a target. -/
theorem C53_only_outputs (d : Disk) {q : Path} (h : ∀ os, Succeeded S os → ∀ o ∈ os, q ≠ o.path) :
    (run S F d).1 q = d q := by
  unfold run
  cases hp : plan S with
  | ok os => exact writeAll_other F S.format d os (h os ((plan_ok S).1 hp))
  | err e => rfl
  | panic => rfl

/-- **C53** After a run that succeeds every step did, and every output is there, formatted, unless a later one
has the same path. -/
theorem C53_success {d d' : Disk} (h : run S F d = (d', .ok ())) :
    ∃ os, Succeeded S os ∧ (∀ q, (∀ o ∈ os, q ≠ o.path) → d' q = d q) ∧
      ∀ pre o post, os = pre ++ o :: post → (∀ x ∈ post, o.path ≠ x.path) →
        ∃ bs, S.format o.code = .ok bs ∧ d' o.path = some bs := by
  unfold run at h
  cases hp : plan S with
  | ok os =>
    rw [hp] at h
    simp only [] at h
    refine ⟨os, (plan_ok S).1 hp, ?_, fun pre o post he hn => writeAll_ok F S.format h he hn⟩
    intro q hq
    have := writeAll_other F S.format d os hq
    rw [h] at this
    exact this
  | err e => rw [hp] at h; cases h
  | panic => rw [hp] at h; cases h

/-- **C53** A failure while writing leaves the outputs before it written, those after it untouched, and its
own missing, unless it could not even be created. -/
theorem C53_write_failure {d d' : Disk} {e : ε} {os : List OutFile} (hs : Succeeded S os)
    (h : run S F d = (d', .err e)) :
    ∃ pre o post, os = pre ++ o :: post ∧
      (∀ pre' x mid, pre = pre' ++ x :: mid → (∀ y ∈ mid ++ [o], x.path ≠ y.path) →
        ∃ bs, S.format x.code = .ok bs ∧ d' x.path = some bs) ∧
      (∀ q, (∀ x ∈ pre ++ [o], q ≠ x.path) → d' q = d q) ∧
      ((F.create o.path = some e ∧ ((∀ x ∈ pre, o.path ≠ x.path) → d' o.path = d o.path)) ∨
       (F.create o.path = none ∧ (F.remove o.path = false → d' o.path = none))) := by
  have hp := (plan_ok S).2 hs
  unfold run at h
  rw [hp] at h
  simp only [] at h
  obtain ⟨pre, o, post, d1, he, h1, h2⟩ := writeAll_err F S.format h (by simp)
  have hother : ∀ {q}, q ≠ o.path → d' q = d1 q := by
    intro q hq
    have := writeOutFile_other F S.format d1 o hq
    rw [h2] at this
    exact this
  have hpre : ∀ {q}, (∀ x ∈ pre, q ≠ x.path) → d1 q = d q := by
    intro q hq
    have := writeAll_other F S.format d pre hq
    rw [h1] at this
    exact this
  refine ⟨pre, o, post, he, ?_, ?_, ?_⟩
  · intro pre' x mid hm hn
    obtain ⟨bs, hb, hd⟩ := writeAll_ok F S.format h1 hm fun y hy => hn y (List.mem_append_left _ hy)
    exact ⟨bs, hb, by rw [hother (hn o (by simp))]; exact hd⟩
  · intro q hq
    rw [hother (hq o (by simp)), hpre fun x hx => hq x (List.mem_append_left _ hx)]
  · rcases writeOutFile_err F S.format h2 with ⟨hc, hd⟩ | hc
    · refine .inl ⟨hc, fun hn => ?_⟩
      rw [hd, hpre hn]
    · exact .inr hc
end

/-! ### Where it fails -/

/-- A program: its types are the numbers of their targets; `5` is not accepted by the analysis, and the code
of `7` cannot be formatted. -/
def toy (hits : List (List Nat)) : Steps Nat Nat Nat Nat where
  openDb := .ok ()
  load := .ok [{ name := b!"p", files := (hits.zipIdx).map fun x => ([b!"src"], ['a', Char.ofNat (48 + x.2)] ++ b!".go"),
                 syntaxes := hits.map fun l => [{ specs := l.map fun m => { name := b!"SelectX", named := some m } }] }]
  filter _ _ := true
  converters := .ok ()
  analyze m := if m = 5 then .err 1 else .ok m
  check a := .ok a
  generate p ts := .ok (p ++ ts.map fun t => Char.ofNat (48 + t))
  format c := if '7' ∈ c then .err 2 else .ok (c ++ b!"!")
  fmt := b!"%s_gosql.go"

def noFaults : Faults Nat where
  create _ := none
  copy _ := none
  sync _ := none
  remove _ := false

/-- The outputs of an earlier run. -/
def before : Disk := fun p =>
  if p = [b!"src", b!"a0_gosql.go"] then some b!"old0" else if p = [b!"src", b!"a1_gosql.go"] then some b!"old1" else none

def after (hits : List (List Nat)) : Option Bytes × Option Bytes × Res Nat Unit :=
  let r := run (toy hits) noFaults before
  (r.1 [b!"src", b!"a0_gosql.go"], r.1 [b!"src", b!"a1_gosql.go"], r.2)

/-- **C53** Code that cannot be formatted destroys the output of the run before, after others were already
replaced. -/
theorem C53_not_format : after [[1, 2], [7]] = (some b!"p12!", none, .err 2) := by decide +kernel

/-- **C53** A run without targets in a file leaves its old output in place. -/
theorem C53_not_stale : after [[1], []] = (some b!"p1!", some b!"old1", .ok ()) := by decide +kernel

example : after [[1, 2], [3]] = (some b!"p12!", some b!"p3!", .ok ()) := by decide +kernel
example : after [[1, 2], [5]] = (some b!"old0", some b!"old1", .err 1) := by decide +kernel

end Verif.Command
