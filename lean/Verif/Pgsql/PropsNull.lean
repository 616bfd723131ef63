import Verif.Pgsql.Nulls
import Verif.Pgsql.PropsInts
/-
Property C27: scanning NULL.
-/
namespace Verif.Pgsql

open Verif Verif.PgServer

/-- After NULL the destination does not depend on what it held. -/
def ScanRow.Resets (r : ScanRow) : Prop :=
  ∀ (δ : Type) (zero : δ) (parse : Bytes → SR δ) (d d' : δ),
    r.scan zero parse d .null = r.scan zero parse d' .null

/-- After NULL the destination is what it was before. -/
def ScanRow.Keeps (r : ScanRow) : Prop :=
  ∀ (δ : Type) (zero : δ) (parse : Bytes → SR δ) (d : δ), r.scan zero parse d .null = .ok d

/-- The files whose scanners keep the old value for NULL. -/
def keepFiles : List String :=
  ["box.go", "char.go", "cidr.go", "daterange.go", "daterangearr.go", "hstore.go", "hstorearr.go",
   "inet.go", "int4range.go", "int4rangearr.go", "int8range.go", "int8rangearr.go", "json.go",
   "line.go", "linearr.go", "lseg.go", "lsegarr.go", "macaddr.go", "money.go", "numrange.go",
   "numrangearr.go", "point.go", "pointarr.go", "time.go", "timetz.go", "tsrange.go", "tstzrange.go",
   "uuid.go", "varbit.go", "xml.go"]

/-- The scanners that keep the old value for NULL: all in the files above except for the ones of
varbit.go to slices and strings, and one in chararr.go. -/
def keeps (r : ScanRow) : Bool :=
  if r.file = "varbit.go" then r.name = "varBitToInt64"
  else if r.file = "chararr.go" then r.name = "charArrayToString"
  else r.file ∈ keepFiles

theorem table_keeps : ∀ r ∈ scanRows,
    (keeps r = true → r.onNull = .leave ∨ r.onNull = .assignCopy) ∧
    (keeps r = false → r.onNull = .assignNil ∨ r.onNull = .assignSrc ∨ r.onNull = .assignZero) := by
  decide +kernel

/-- C27 holds for the scanners not in the list. -/
theorem C27_resets_partial (r : ScanRow) (hr : r ∈ scanRows) (hk : keeps r = false) : r.Resets := by
  intro δ zero parse d d'
  unfold ScanRow.scan
  rcases (table_keeps r hr).2 hk with h | h | h <;> rw [h] <;> rfl

/-- C27: what they leave is the zero value. -/
theorem C27_zero_partial (r : ScanRow) (hr : r ∈ scanRows) (hk : keeps r = false) (δ : Type) (zero : δ)
    (parse : Bytes → SR δ) (d : δ) : r.scan zero parse d .null = .ok zero := by
  unfold ScanRow.scan
  rcases (table_keeps r hr).2 hk with h | h | h <;> rw [h] <;> rfl

/-- C27 fails for the 105 scanners in the list: they leave the value of the row before. -/
theorem C27_not_keeps (r : ScanRow) (hr : r ∈ scanRows) (hk : keeps r = true) : r.Keeps := by
  intro δ zero parse d
  unfold ScanRow.scan
  rcases (table_keeps r hr).1 hk with h | h <;> rw [h] <;> rfl

theorem C27_not_resets (r : ScanRow) (hr : r ∈ scanRows) (hk : keeps r = true) : ¬ r.Resets := by
  intro h
  have h1 := h Bool false (fun _ => .panic) true false
  rw [C27_not_keeps r hr hk, C27_not_keeps r hr hk] at h1
  cases h1

/-- C27: exactly the ones not in the list reset the destination. -/
theorem C27_iff (r : ScanRow) (hr : r ∈ scanRows) : r.Resets ↔ keeps r = false := by
  constructor
  · intro h
    cases hk : keeps r with
    | false => rfl
    | true => exact absurd h (C27_not_resets r hr hk)
  · exact C27_resets_partial r hr

/-- C27: with a resetting scanner what is in the destination after the last row depends on that row
only, whatever the rows before it were, provided they were scanned without error. -/
theorem C27_rows_partial (r : ScanRow) (hr : r ∈ scanRows) (hk : keeps r = false) (δ : Type) (zero : δ)
    (parse : Bytes → SR δ) (d d' : δ) (ss : List Src) (s : Src)
    (h : ∃ x, r.scanAll zero parse d ss = .ok x) :
    r.scanAll zero parse d (ss ++ [s]) = r.scanAll zero parse d' [s] := by
  have hs : ∀ d d', r.scan zero parse d s = r.scan zero parse d' s := by
    intro d d'
    have h1 := C27_zero_partial r hr hk δ zero parse
    unfold ScanRow.scan at h1 ⊢
    cases srcbytes s with
    | none => simp only; exact (h1 d).trans (h1 d').symm
    | some b => rfl
  induction ss generalizing d with
  | nil => simp only [List.nil_append, ScanRow.scanAll, hs d d']
  | cons t ts ih =>
    obtain ⟨x, hx⟩ := h
    rw [ScanRow.scanAll] at hx
    rw [List.cons_append, ScanRow.scanAll]
    cases ht : r.scan zero parse d t with
    | ok y =>
      rw [ht, Res.bind_ok] at hx
      rw [Res.bind_ok]
      exact ih y ⟨x, hx⟩
    | err _ => rw [ht] at hx; cases hx
    | panic => rw [ht] at hx; cases hx

/-- C27 fails over rows: with any other scanner a row with NULL shows the value of the row before. -/
theorem C27_not_rows (r : ScanRow) (hr : r ∈ scanRows) (hk : keeps r = true) (δ : Type) (zero : δ)
    (parse : Bytes → SR δ) (d x : δ) (b : Bytes) (h : parse b = .ok x) :
    r.scanAll zero parse d [.bytes b, .null] = .ok x := by
  have h1 := C27_not_keeps r hr hk δ zero parse x
  simp only [ScanRow.scanAll]
  have h2 : r.scan zero parse d (.bytes b) = .ok x := h
  rw [h2, Res.bind_ok, h1, Res.bind_ok]

/-- C27: a value of a type `srcbytes` does not know counts as NULL; it is not an error. -/
theorem C27_not_unknown (r : ScanRow) (δ : Type) (zero : δ) (parse : Bytes → SR δ) (d : δ) (v : Int) :
    r.scan zero parse d (.other v) = r.scan zero parse d .null := rfl

/-- The two frames used for the modelled scanners are the two kinds in the table. -/
theorem C27_frames {δ : Type} (f : Bytes → SR δ) (s : Src) :
    (∀ r : ScanRow, r.onNull = .assignNil → ∀ d,
      r.scan none (fun b => (f b).map some) d s = scanReset f d (srcbytes s)) ∧
    (∀ r : ScanRow, r.onNull = .leave → ∀ zero d, r.scan zero f d s = scanKeep f d (srcbytes s)) := by
  constructor
  · intro r hr d
    unfold ScanRow.scan scanReset
    rw [hr]
    cases srcbytes s <;> rfl
  · intro r hr z d
    unfold ScanRow.scan scanKeep
    rw [hr]
    cases srcbytes s <;> rfl

example : scanRows.length = 230 := by decide +kernel
example : (scanRows.filter keeps).length = 105 := by decide +kernel
example : keeps ⟨"hstoreToStringMap", "hstore.go", 0, .leave⟩ = true := by decide +kernel
example : keeps ⟨"textArrayToStringSlice", "textarr.go", 0, .assignNil⟩ = false := by decide +kernel
/-- Every integer scanner of `intScans` is in this table, with the frame it was modelled with. -/
example : ∀ e ∈ intScans, ∃ r ∈ scanRows, r.name = e.name ∧
    (r.onNull = match e.shape with
      | .range => .leave
      | .rangeArr => .assignCopy
      | _ => .assignNil) := by decide +kernel

end Verif.Pgsql
