import Verif.Generator.PropsOutput2

/-
C66: NULL.  A column that may be NULL is read into a field that cannot hold NULL as a substitute, and the zero
value of a field that cannot say NULL is written as NULL, so what is written is read back.
-/
namespace Verif.Generator
open Verif.Analysis Verif.Postgres

/-! ### Values -/

/-- What the database makes of literals and casts; `none` is NULL. -/
structure SqlWorld (V : Type) where
  lit : Bytes → Option V
  cast : Bytes → V → V

section
variable {V α : Type} [DecidableEq V] (W : SqlWorld V)

/-- The value of an expression, given those of the parameters and of the columns.  A cast of NULL is NULL;
COALESCE is its first argument unless that is NULL; NULLIF is NULL if its arguments are equal. -/
def SqlWorld.val (param : α → Option V) (col : ColIdent → Option V) : VExpr α → Option V
  | .param a => param a
  | .col c => col c
  | .lit s => W.lit s
  | .cast x t => (val param col x).map (W.cast t)
  | .coalesce x y =>
    match val param col x with
    | some v => some v
    | none => val param col y
  | .nullif x y => if val param col x = val param col y then none else val param col x
  | _ => none

end

/-! ### What is asked for -/

/-- The column of an ordinary table without NOT NULL. -/
def nullableColumn (c : Column) : Prop := c.relKind = 'r' ∧ c.hasNotNull = false

/-- A destination that can be given NULL. -/
def TakesNull (r : FieldRead) : Prop :=
  r.field.type.kind = .ptr ∨ implementsScanner r.field.type = true ∨ r.scanner ≠ []

/-- An argument that can be NULL. -/
def SaysNull (w : FieldWrite) : Prop :=
  w.field.type.kind = .ptr ∨ implementsValuer w.field.type = true ∨ w.valuer ≠ []

/-- NULL is to be replaced. -/
def Replaces (r : FieldRead) : Prop := r.field.useCoalesce = true ∨ nullableColumn r.column ∧ ¬ TakesNull r

/-- The literal that stands for NULL in a field. -/
def standIn (r : FieldRead) : Option Bytes :=
  if r.field.coalesceValue ≠ [] then some r.field.coalesceValue
  else if r.column.type.oid = Oid.uuid then some b!"''" else r.column.type.zeroValue

theorem needsCoalesce_iff (r : FieldRead) : r.needsCoalesce = true ↔ Replaces r := by
  unfold FieldRead.needsCoalesce Replaces TakesNull nullableColumn Column.isNullable
  simp only [Bool.or_eq_true, Bool.and_eq_true, decide_eq_true_eq, Bool.not_eq_true',
    List.length_eq_zero_iff, not_or, ne_eq, Bool.not_eq_true, Decidable.not_not, and_assoc]

theorem needsNullif_iff (w : FieldWrite) : w.needsNullif = true ↔ nullableColumn w.column ∧ ¬ SaysNull w := by
  unfold FieldWrite.needsNullif SaysNull nullableColumn Column.isNullable
  simp only [Bool.and_eq_true, decide_eq_true_eq, Bool.not_eq_true',
    List.length_eq_zero_iff, not_or, ne_eq, Bool.not_eq_true, Decidable.not_not, and_assoc]

/-! ### Reading -/

section
variable {V : Type} [DecidableEq V] (W : SqlWorld V)

/-- The value read for a field, given that of its column. -/
def readAs {α : Type} (param : α → Option V) (col : ColIdent → Option V) (r : FieldRead) : Option V :=
  W.val param col (readVal r)

theorem readAs_bare {α : Type} (param : α → Option V) (col : ColIdent → Option V) (r : FieldRead)
    (h : ¬ Replaces r) : readAs W param col r = col r.colIdent := by
  rw [← needsCoalesce_iff] at h
  rw [readAs, readVal, if_neg h, SqlWorld.val]

theorem readAs_some {α : Type} (param : α → Option V) (col : ColIdent → Option V) (r : FieldRead) {v : V}
    (h : col r.colIdent = some v) :
    readAs W param col r = some v ∨
    (r.column.type.oid = Oid.uuid ∧ Replaces r ∧ r.field.coalesceValue = [] ∧
      readAs W param col r = some (W.cast b!"text" v)) := by
  unfold readAs readVal
  split
  · rename_i hc
    unfold addCoalesce
    split
    · exact .inl (by simp [SqlWorld.val, h])
    · rename_i hv
      split
      · rename_i hu
        exact .inr ⟨hu, (needsCoalesce_iff r).1 hc, by simpa using hv, by simp [SqlWorld.val, h]⟩
      · split
        · exact .inl (by simp [SqlWorld.val, h])
        · exact .inl (by simp [SqlWorld.val, h])
  · exact .inl (by simp [SqlWorld.val, h])

theorem readAs_none {α : Type} (param : α → Option V) (col : ColIdent → Option V) (r : FieldRead)
    (h : col r.colIdent = none) (hr : Replaces r) :
    readAs W param col r = (standIn r).bind fun l =>
      if r.column.type.oid = Oid.uuid ∧ r.field.coalesceValue = [] then W.lit l
      else (W.lit l).map (W.cast r.column.type.nameFmt) := by
  unfold readAs readVal standIn
  rw [if_pos ((needsCoalesce_iff r).2 hr), addCoalesce]
  by_cases hv : r.field.coalesceValue = []
  · have h0 : ¬ r.field.coalesceValue.length > 0 := by simp [hv]
    rw [if_neg h0]
    by_cases hu : r.column.type.oid = Oid.uuid
    · simp [SqlWorld.val, h, emptyLit, hu, hv]
    · rw [if_neg hu]
      cases hz : r.column.type.zeroValue <;> simp [SqlWorld.val, h, hu, hv]
  · rw [if_pos (by simpa [List.length_pos_iff] using hv), if_pos hv]
    simp [SqlWorld.val, h, hv]

/-- **C66** What is scanned into a field: the value of its column, as text for a uuid that is replaced; in
place of NULL the literal asked for by the tag or else the zero value of the column's type, but only if the
tag says `coalesce` or the column may be NULL and the field cannot take it. -/
theorem C66_read {cat : Catalog} {q : Query} {t : TargetInfo} {c : Code} (_h : Built cat q t)
    (hk : isSelectCountOrExists q = false) (hu : q.isSliceUpdate = false) (hc : generate q t = some c)
    (param : Slot → Option V) (col : ColIdent → Option V) :
    ∀ (i : Nat) (r : FieldRead), t.reads[i]? = some r →
    ∃ x, (returned c)[i]? = some x ∧
      (∀ v, col r.colIdent = some v →
        W.val param col x = some v ∨
        r.column.type.oid = Oid.uuid ∧ Replaces r ∧ r.field.coalesceValue = [] ∧
          W.val param col x = some (W.cast b!"text" v)) ∧
      (col r.colIdent = none → Replaces r → W.val param col x = (standIn r).bind fun l =>
        if r.column.type.oid = Oid.uuid ∧ r.field.coalesceValue = [] then W.lit l
        else (W.lit l).map (W.cast r.column.type.nameFmt)) ∧
      (col r.colIdent = none → ¬ Replaces r → W.val param col x = none) := by
  intro i r hr
  refine ⟨readVal r, ?_, ?_, ?_, ?_⟩
  · rw [returned_eq hk hu hc, List.getElem?_map, hr]; rfl
  · intro v hv; exact readAs_some W param col r hv
  · intro hn hp; exact readAs_none W param col r hn hp
  · intro hn hp
    have := readAs_bare W param col r hp
    rw [hn] at this
    exact this

/-- **C66** No NULL is scanned into a field that cannot take it, if only columns of ordinary tables without
NOT NULL are NULL, the type of the column has a zero value (or the tag gives one), and the literal is not
NULL. -/
theorem C66_no_null_partial {cat : Catalog} {q : Query} {t : TargetInfo} {c : Code} (h : Built cat q t)
    (hk : isSelectCountOrExists q = false) (hu : q.isSliceUpdate = false) (hc : generate q t = some c)
    (param : Slot → Option V) (col : ColIdent → Option V)
    (hcol : ∀ r ∈ t.reads, col r.colIdent = none → nullableColumn r.column)
    (i : Nat) (r : FieldRead) (hr : t.reads[i]? = some r) (ht : ¬ TakesNull r)
    (l : Bytes) (hl : standIn r = some l) (hn : W.lit l ≠ none) :
    ∃ x, (returned c)[i]? = some x ∧ W.val param col x ≠ none := by
  obtain ⟨x, hx, h1, h2, _⟩ := C66_read W h hk hu hc param col i r hr
  refine ⟨x, hx, ?_⟩
  cases hv : col r.colIdent with
  | some v =>
    rcases h1 v hv with e | ⟨_, _, _, e⟩ <;> simp [e]
  | none =>
    rw [h2 hv (.inr ⟨hcol r (List.mem_of_getElem? hr) hv, ht⟩), hl]
    simp only [Option.bind_some]
    split
    · exact hn
    · simpa using hn

/-! ### Writing -/

/-- **C66** What is written to a column: the argument, or NULL for the zero value of the column's type (for a
uuid the empty string) if the column may be NULL and the argument cannot be.  Casts do not change a value
here. -/
theorem C66_write (q : Query) (w : FieldWrite) (param : GoExpr → Option V) (col : ColIdent → Option V)
    (hd : canUseDefault q w.field = false) (hcast : ∀ u, W.cast w.column.type.nameFmt u = u) :
    W.val param col (writeSpec q w) = param (writeArg q w) ∨
    W.val param col (writeSpec q w) = none ∧ nullableColumn w.column ∧ ¬ SaysNull w ∧
      ∃ z, (if w.column.type.oid = Oid.uuid then some b!"''" else w.column.type.zeroValue) = some z ∧
        param (writeArg q w) = W.lit z := by
  have hid : (W.cast w.column.type.nameFmt) = id := funext hcast
  unfold writeSpec
  rw [if_neg (by simp [hd])]
  split
  · rename_i hn
    obtain ⟨h1, h2⟩ := (needsNullif_iff w).1 hn
    unfold addNullif
    split
    · rename_i hu
      by_cases he : param (writeArg q w) = W.lit b!"''"
      · exact .inr ⟨by simp [SqlWorld.val, emptyLit, textUnlessParam, he], h1, h2, _, rfl, he⟩
      · exact .inl (by simp [SqlWorld.val, emptyLit, textUnlessParam, he, hid])
    · split
      · rename_i z hz
        by_cases he : param (writeArg q w) = W.lit z
        · exact .inr ⟨by simp [SqlWorld.val, he], h1, h2, z, hz, he⟩
        · exact .inl (by simp [SqlWorld.val, he, hid])
      · exact .inl rfl
  · exact .inl rfl

/-- **C66** The zero value of a field that cannot say NULL is NULL in a column that may be. -/
theorem C66_write_zero (q : Query) (w : FieldWrite) (param : GoExpr → Option V) (col : ColIdent → Option V)
    (hd : canUseDefault q w.field = false) (hn : nullableColumn w.column) (hs : ¬ SaysNull w) (z : Bytes)
    (hz : (if w.column.type.oid = Oid.uuid then some b!"''" else w.column.type.zeroValue) = some z)
    (hp : param (writeArg q w) = W.lit z) : W.val param col (writeSpec q w) = none := by
  unfold writeSpec
  rw [if_neg (by simp [hd]), if_pos ((needsNullif_iff w).2 ⟨hn, hs⟩), addNullif]
  split at hz
  · rename_i hu
    cases hz
    rw [if_pos hu]
    simp [SqlWorld.val, emptyLit, textUnlessParam, hp]
  · rename_i hu
    rw [if_neg hu, hz]
    simp [SqlWorld.val, hp]

/-! ### Both -/

/-- **C66** What was written to a column of an ordinary table is read back, provided that a field that can be
given NULL can also say it, and that the tag does not replace NULL by another value than the zero value. -/
theorem C66_round_trip_partial {α : Type} (q : Query) (w : FieldWrite) (r : FieldRead)
    (param : GoExpr → Option V) (col0 : ColIdent → Option V) (param' : α → Option V) (col : ColIdent → Option V)
    (hd : canUseDefault q w.field = false) (hc : w.column = r.column)
    (hs : TakesNull r → SaysNull w) (hv : r.field.coalesceValue = [])
    (hcast : ∀ u, W.cast w.column.type.nameFmt u = u)
    (htext : w.column.type.oid = Oid.uuid → ∀ u, W.cast b!"text" u = u)
    (v : V) (hp : param (writeArg q w) = some v)
    (hstore : col r.colIdent = W.val param col0 (writeSpec q w)) :
    readAs W param' col r = some v := by
  rcases C66_write W q w param col0 hd hcast with e | ⟨e, h1, h2, z, hz, hl⟩
  · rw [e, hp] at hstore
    rcases readAs_some W param' col r hstore with h | ⟨hu, _, _, h⟩
    · exact h
    · rw [h, htext (hc ▸ hu)]
  · rw [e] at hstore
    have hr : Replaces r := .inr ⟨hc ▸ h1, fun h => h2 (hs h)⟩
    rw [readAs_none W param' col r hstore hr, standIn, if_neg (by simp [hv]), ← hc, hz]
    rw [hp] at hl
    have hid : (W.cast w.column.type.nameFmt) = id := funext hcast
    simp [← hl, hid]

end
end Verif.Generator
