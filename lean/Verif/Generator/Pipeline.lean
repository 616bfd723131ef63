import Verif.Generator.LemmasCover
import Verif.Analysis.PropsQuery2

/- What the generator is given: the results of the analyzer and the type checker. -/
namespace Verif.Generator
open Verif.Analysis Verif.Postgres

theorem takesValue_of (p : Pred) (hu : p.isUnary = false) (hr : p.isRange = false) :
    takesValue (some p) = true := by
  revert hu hr
  cases p <;> decide

theorem condsKept_cons {first seen : Bool} {c : Cond} {cs : List Cond} (hb : isBool c = none)
    (h : (first || seen) = true) (hc : condKept c = true) (hs : condsKept false seen cs = true) :
    condsKept first seen (c :: cs) = true := by
  rw [condsKept, hb]
  simp only [h, hc, hs, Bool.and_self]

mutual
theorem condKept_of (c : Checker) : ∀ (i : WItem) (r : Cond), SoundItem i → linkedItem i = true →
    checkWhereItem c i = .ok r → condKept r = true
  | .bool _, r, _, _, h => by cases h; simp [condKept]
  | .nested n items, r, hs, hl, h => by
    simp only [checkWhereItem, Res.map_eq_ok] at h
    obtain ⟨cs, hcs, rfl⟩ := h
    rw [condKept]
    cases hs with
    | nested _ _ hs =>
      rw [linkedItem] at hl
      exact condsKept_of c items cs true false true hs hl hcs (fun _ => rfl)
  | .column cc, r, _, _, h => by
    simp only [checkWhereItem, Res.map_eq_ok] at h
    obtain ⟨x, _, rfl⟩ := h
    simp [condKept]
  | .field f, r, hs, _, h => by
    simp only [checkWhereItem, checkWhereField, Res.map_eq_ok, Res.bind_eq_ok] at h
    obtain ⟨x, ⟨_, _, hx⟩, rfl⟩ := h
    rw [condKept, (checkFieldCond_keeps hx).2.1]
    cases hs with
    | field _ hs =>
      obtain ⟨p, hp, hu, hr, _⟩ := hs
      simp only [hp]
      exact takesValue_of p hu hr
  | .between b, r, _, _, h => by
    simp only [checkWhereItem, Res.map_eq_ok] at h
    obtain ⟨x, _, rfl⟩ := h
    simp [condKept]
theorem condsKept_of (c : Checker) : ∀ (is : List WItem) (r : List Cond) (first seen ok : Bool),
    (∀ i ∈ is, SoundItem i) → linked ok is = true → checkWhereItems c is = .ok r →
    (ok = true → (first || seen) = true) → condsKept first seen r = true
  | [], r, _, _, _, _, _, h, _ => by cases h; simp [condsKept]
  | i :: is, r, first, seen, ok, hs, hl, h, hok => by
    simp only [checkWhereItems, Res.map_eq_ok, Res.bind_eq_ok] at h
    obtain ⟨x, hx, xs, hxs, rfl⟩ := h
    have hi := hs i (List.mem_cons_self ..)
    have hss : ∀ i ∈ is, SoundItem i := fun i h => hs i (List.mem_cons_of_mem _ h)
    cases i with
    | bool b =>
      simp only [checkWhereItem] at hx
      cases hx
      rw [condsKept]
      simp only [isBool]
      simp only [linked] at hl
      exact condsKept_of c is xs false true true hss hl hxs (fun _ => rfl)
    | nested n items =>
      simp only [linked, Bool.and_eq_true] at hl
      have hk := condKept_of c _ x hi hl.1.2 hx
      simp only [checkWhereItem, Res.map_eq_ok] at hx
      obtain ⟨_, _, rfl⟩ := hx
      exact condsKept_cons rfl (hok hl.1.1) hk
        (condsKept_of c is xs false seen false hss hl.2 hxs (fun h => by cases h))
    | field f =>
      simp only [linked, Bool.and_eq_true] at hl
      have hk := condKept_of c _ x hi hl.1.2 hx
      simp only [checkWhereItem, Res.map_eq_ok] at hx
      obtain ⟨_, _, rfl⟩ := hx
      exact condsKept_cons rfl (hok hl.1.1) hk
        (condsKept_of c is xs false seen false hss hl.2 hxs (fun h => by cases h))
    | column f =>
      simp only [linked, Bool.and_eq_true] at hl
      have hk := condKept_of c _ x hi hl.1.2 hx
      simp only [checkWhereItem, Res.map_eq_ok] at hx
      obtain ⟨_, _, rfl⟩ := hx
      exact condsKept_cons rfl (hok hl.1.1) hk
        (condsKept_of c is xs false seen false hss hl.2 hxs (fun h => by cases h))
    | between f =>
      simp only [linked, Bool.and_eq_true] at hl
      have hk := condKept_of c _ x hi hl.1.2 hx
      simp only [checkWhereItem, Res.map_eq_ok] at hx
      obtain ⟨_, _, rfl⟩ := hx
      exact condsKept_cons rfl (hok hl.1.1) hk
        (condsKept_of c is xs false seen false hss hl.2 hxs (fun h => by cases h))
end

/-- The query comes from the analyzer and has passed the checks against the database. -/
structure Built (cat : Catalog) (q : Query) (t : TargetInfo) : Prop where
  analyzed : ∃ env cache n fs s, analyzeQuery env cache n fs = .ok s ∧ s.q = q
  checked : checkQuery cat q = .ok t

theorem Built.wf {cat : Catalog} {q : Query} {t : TargetInfo} (h : Built cat q t) : Wf q t :=
  wf_of_accepted h.checked

theorem Built.shape {cat : Catalog} {q : Query} {t : TargetInfo} (h : Built cat q t) : Shape q := by
  obtain ⟨env, cache, n, fs, s, e, rfl⟩ := h.analyzed
  obtain ⟨_, h1, h2, _⟩ := C33_rows env cache n fs s e
  have f := analyzeQuery_fits e
  constructor
  · intro hk
    have := h2 hk
    simp only [Query.rowClauses] at this
    revert this
    cases s.q.wher <;> cases s.q.all <;> cases s.q.filter <;> simp [b2n]
  · intro hk
    have hl := f.limit
    have ho := f.offset
    rw [hk] at hl ho
    constructor
    · cases hx : s.q.limit with
      | none => rfl
      | some l => exact absurd (hl (by simp [hx])) (by simp)
    · cases hx : s.q.offset with
      | none => rfl
      | some l => exact absurd (ho (by simp [hx])) (by simp)
  · intro hf
    revert h1 hf
    simp only [Query.rowClauses]
    cases s.q.wher <;> cases s.q.all <;> cases s.q.filter <;> simp [b2n]

theorem Built.kept {cat : Catalog} {q : Query} {t : TargetInfo} (h : Built cat q t) :
    condsKept true false t.wher = true := by
  obtain ⟨env, cache, n, fs, s, e, rfl⟩ := h.analyzed
  have f := analyzeQuery_fits e
  obtain ⟨c, _, _, _, _, _, _, _, _, _, _, hc⟩ := checkQuery_ok h.checked
  refine condsKept_of c _ _ true false true ?_ ?_ hc (fun _ => rfl)
  · cases hw : s.q.wher with
    | none => simp
    | some w => exact fun i hi => (f.wher w hw i hi).1
  · cases hw : s.q.wher with
    | none => simp [linked]
    | some w => exact f.linked w hw

theorem Built.no_writes {cat : Catalog} {q : Query} {t : TargetInfo} (h : Built cat q t)
    (hk : isInsertOrUpdate q = false) : t.writes = [] ∧ t.pkeys = [] := by
  obtain ⟨c, hc, r1, r2, rw', _, _, hrel, _, hw, hp, _⟩ := checkQuery_ok h.checked
  have : ¬ Writing q := by
    rintro ⟨_, h | h⟩ <;> simp [isInsertOrUpdate, h] at hk
  rw [hw, hp, checkRel_not_writing this hrel]
  exact ⟨rfl, rfl⟩

end Verif.Generator
