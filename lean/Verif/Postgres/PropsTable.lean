import Verif.Postgres.Tables

/-
Property C59: the converters named by the compatibility table exist and take the Go type of their row.
-/
namespace Verif.Postgres

/-! ### C59 -/

/-- A function of package pgsql with this name turns a `lit` into a driver.Valuer. -/
def IsValuerOf (name lit : Bytes) : Prop :=
  ∃ f ∈ convFuncs, f.name = name ∧ f.kind ≠ .scanner ∧ (f.param = lit ∨ f.param = b!"interface{}")

/-- A function of package pgsql with this name turns a pointer to a `lit` into an sql.Scanner. -/
def IsScannerOf (name lit : Bytes) : Prop :=
  ∃ f ∈ convFuncs, f.name = name ∧ f.kind ≠ .valuer ∧ (f.param = '*' :: lit ∨ f.param = b!"interface{}")

/-- The functions in the order of their names, looked up from the front. -/
def fitsV (name lit : Bytes) : Bool :=
  convFuncs.any fun f => f.name == name && decide (f.kind ≠ .scanner) &&
    (f.param == lit || f.param == b!"interface{}")
def fitsS (name lit : Bytes) : Bool :=
  convFuncs.any fun f => f.name == name && decide (f.kind ≠ .valuer) &&
    (f.param == '*' :: lit || f.param == b!"interface{}")

theorem fitsV_iff {n l : Bytes} (h : fitsV n l = true) : IsValuerOf n l := by
  simp only [fitsV, List.any_eq_true, Bool.and_eq_true, Bool.or_eq_true, beq_iff_eq,
    decide_eq_true_eq] at h
  obtain ⟨f, hf, ⟨h1, h2⟩, h3⟩ := h
  exact ⟨f, hf, h1, h2, h3⟩

theorem fitsS_iff {n l : Bytes} (h : fitsS n l = true) : IsScannerOf n l := by
  simp only [fitsS, List.any_eq_true, Bool.and_eq_true, Bool.or_eq_true, beq_iff_eq,
    decide_eq_true_eq] at h
  obtain ⟨f, hf, ⟨h1, h2⟩, h3⟩ := h
  exact ⟨f, hf, h1, h2, h3⟩

theorem valuers_fit : (compTable.all fun r => r.entry.valuer.isEmpty || fitsV r.entry.valuer r.lit) = true := by
  decide +kernel

theorem scanners_fit : (compTable.all fun r =>
    r.entry.scanner.isEmpty || fitsS r.entry.scanner r.lit ||
      (r.oid == Oid.inetArr && (r.lit == b!"[]net.IP" || r.lit == b!"[]net.IPNet"))) = true := by
  decide +kernel

/-- **C59** Every converter of the compatibility table that is used to write is a function of package pgsql
that takes a value of the row's Go type. -/
theorem C59_valuers (r : CompRow) (h : r ∈ compTable) (hv : r.entry.valuer ≠ []) :
    IsValuerOf r.entry.valuer r.lit := by
  have := List.all_eq_true.1 valuers_fit r h
  rw [Bool.or_eq_true] at this
  exact fitsV_iff (this.resolve_left fun h => hv (List.isEmpty_iff.1 h))

/-- **C59** Every converter that is used to read takes a pointer to the row's Go type, except those of two
rows for `inet[]`. -/
theorem C59_scanners (r : CompRow) (h : r ∈ compTable) (hv : r.entry.scanner ≠ [])
    (hi : ¬ (r.oid = Oid.inetArr ∧ (r.lit = b!"[]net.IP" ∨ r.lit = b!"[]net.IPNet"))) :
    IsScannerOf r.entry.scanner r.lit := by
  have := List.all_eq_true.1 scanners_fit r h
  simp only [Bool.or_eq_true, Bool.and_eq_true, beq_iff_eq] at this
  exact fitsS_iff ((this.resolve_right hi).resolve_left fun h => hv (List.isEmpty_iff.1 h))

/-- **C59** The two rows name the function for writing, which gives no sql.Scanner. -/
theorem C59_not_inet :
    (∃ r ∈ compTable, r.oid = Oid.inetArr ∧ r.lit = b!"[]net.IP" ∧
      r.entry.scanner = b!"InetArrayFromIPSlice") ∧
    (∃ r ∈ compTable, r.oid = Oid.inetArr ∧ r.lit = b!"[]net.IPNet" ∧
      r.entry.scanner = b!"InetArrayFromIPNetSlice") ∧
    ∀ f ∈ convFuncs, f.name = b!"InetArrayFromIPSlice" ∨ f.name = b!"InetArrayFromIPNetSlice" →
      f.kind = .valuer := by
  refine ⟨?_, ?_, ?_⟩
  · exact ⟨{ oid := Oid.inetArr, lit := b!"[]net.IP"
             entry := { valuer := b!"InetArrayFromIPSlice", scanner := b!"InetArrayFromIPSlice" } },
      by decide +kernel, by decide +kernel⟩
  · exact ⟨{ oid := Oid.inetArr, lit := b!"[]net.IPNet"
             entry := { valuer := b!"InetArrayFromIPNetSlice", scanner := b!"InetArrayFromIPNetSlice" } },
      by decide +kernel, by decide +kernel⟩
  · decide +kernel

/-- No row has the key of a row behind it. -/
def keysDistinct : List CompRow → Bool
  | [] => true
  | r :: rs => (rs.all fun x => !(x.oid == r.oid && x.typmod1 == r.typmod1 && x.lit == r.lit)) &&
      keysDistinct rs

theorem keys_distinct : keysDistinct compTable = true := by decide +kernel

theorem anyFuncs_mem : (⟨b!"JSON", b!"interface{}", .both⟩ : ConvFunc) ∈ convFuncs ∧
    (⟨b!"XML", b!"interface{}", .both⟩ : ConvFunc) ∈ convFuncs ∧
    (⟨b!"AnyToEmptyInterface", b!"*interface{}", .scanner⟩ : ConvFunc) ∈ convFuncs := by decide +kernel

end Verif.Postgres
