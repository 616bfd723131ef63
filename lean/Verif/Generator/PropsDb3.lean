import Verif.Generator.PropsDb2

/- C81: which rows and columns of the tables are concerned. -/
namespace Verif.Generator
open Verif.Analysis Verif.Postgres

section
variable {V : Type} (S : Server V)

/-- The tables of the server have the columns of the catalog. -/
def Server.Knows (cat : Catalog) : Prop :=
  ∀ r rel, loadRelation cat r = .ok rel → ∀ c ∈ rel.columns, S.has (tableOf r) c.name = true

/-- Two values are equal if neither is NULL and they are the same. -/
def Server.Compares : Prop :=
  ∀ a b, S.op b!"=" a b = match a, b with
    | some x, some y => some (S.le x y && S.le y x)
    | _, _ => none

/-- The order of values is one: only equal values come at the same place. -/
def Server.Ordered : Prop := ∀ x y, (S.le x y && S.le y x) = true ↔ x = y

variable {S} {cat : Catalog} {q : Query} {t : TargetInfo} {c : Code}

/-- A column with the alias of the target is one of its row. -/
theorem col_own (hk : S.Knows cat) {rel : Relation} (hl : loadRelation cat q.rel.id = .ok rel) {n : Bytes}
    {col : Column} (hf : rel.columns.find? (fun c => c.name = n) = some col) (row : Row V) (o : Joined V) :
    S.col ((q.rel.id, row) :: o) { qualifier := q.rel.id.alias, name := n } = row n := by
  have hn : col.name = n := by simpa using List.find?_some hf
  have ho : S.owns q.rel.id { qualifier := q.rel.id.alias, name := n } = true := by
    unfold Server.owns knownAs
    by_cases ha : q.rel.id.alias = []
    · simp only [ha, if_true]
      rw [← hn]
      exact hk _ _ hl col (List.mem_of_find?_eq_some hf)
    · simp [ha]
  simp [Server.col, ho]

theorem read_own (h : Built cat q t) (hk : S.Knows cat) (r : FieldRead) (hr : r ∈ t.reads) (row : Row V) (o : Joined V) :
    S.col ((q.rel.id, row) :: o) r.colIdent = row r.column.name := by
  obtain ⟨_, hi, _, rel, hl, hf⟩ := C49_reads h.checked r hr
  have hn : r.column.name = r.field.colIdent.name := by simpa using List.find?_some hf
  rw [hi, col_own hk hl hf, hn]

theorem write_name (h : Built cat q t) (w : FieldWrite) (hw : w ∈ t.writes) :
    w.column.name = w.field.colIdent.name := by
  obtain ⟨_, _, _, rel, hl, hf⟩ := (C49_writes h.checked).1 w hw
  simpa using List.find?_some hf

theorem key_own (h : Built cat q t) (hk : S.Knows cat) (p : FieldWrite) (hp : p ∈ t.pkeys) (row : Row V) (o : Joined V) :
    S.col ((q.rel.id, row) :: o) p.colIdent = row p.column.name := by
  obtain ⟨_, _, hi, rel, hl, hf⟩ := pkeys_ok h.checked p hp
  have hn : p.column.name = p.field.colIdent.name := by simpa using List.find?_some hf
  rw [hi, col_own hk hl hf, hn]

/-- **C81** An update without where struct is about the rows whose columns of the primary key have the values
of the fields; a key that is NULL is that of no row. -/
theorem C81_key (h : Plain cat q t) (hkn : S.Knows cat) (hcmp : S.Compares) (hord : S.Ordered)
    (hk : q.kind = .update) (hw : q.hasWhere = false) (field : Fields V) (row : Row V) :
    S.askedTarget field q t [(q.rel.id, row)] = true ↔
      ∀ p ∈ t.pkeys, ∃ v, field (recordPath q p.field) = some v ∧ row p.column.name = some v := by
  unfold Server.askedTarget
  rw [if_pos ⟨hk, hw⟩, Server.askedKey, List.all_eq_true]
  refine forall_congr' fun p => forall_congr' fun hp => ?_
  rw [key_own h.toBuilt hkn p hp, hcmp, decide_eq_true_eq]
  rcases row p.column.name with _ | x <;> rcases field (recordPath q p.field) with _ | y <;> simp
  rw [← Bool.and_eq_true, hord]

variable [DecidableEq V]

/-- **C81** The columns of the row for a record, or of a row changed to it: those of the written fields have
what is stored for the fields, or the default if that is asked for; a new row has the default in the other
columns, a changed row keeps them. -/
theorem C81_columns (value : FieldWrite → Option V) (old : Row V) (n : Bytes) :
    ((∀ w ∈ t.writes, w.column.name ≠ n) →
      S.recordRow value q t n = S.default (tableOf q.rel.id) n ∧ S.recordOver value q t old n = old n) ∧
    ∀ w ∈ t.writes, w.column.name = n → t.writes.Pairwise (fun a b => a.column.name ≠ b.column.name) →
      let v := if asksDefault q w.field then S.default (tableOf q.rel.id) n else S.stored w (value w)
      S.recordRow value q t n = v ∧ S.recordOver value q t old n = v := by
  constructor
  · intro hn
    have : (t.writes.find? fun w => w.column.name = n) = none := by
      rw [List.find?_eq_none]
      simpa using hn
    simp [Server.recordRow, Server.recordOver, Server.written, this]
  · intro w hw hn hd
    have : (t.writes.find? fun w => w.column.name = n) = some w := by
      generalize t.writes = l at hw hd
      induction l with
      | nil => simp at hw
      | cons x l ih =>
        rw [List.find?_cons]
        rw [List.pairwise_cons] at hd
        rcases List.mem_cons.1 hw with rfl | hw
        · simp [hn]
        · have : x.column.name ≠ n := by rw [← hn]; exact hd.1 w hw
          simp [this, ih hw hd.2]
    simp [Server.recordRow, Server.recordOver, Server.written, this]

/-- **C81** What is written to a column is read back into a field that takes NULL only if the written one
says it: the row of the record gives the field of the same column the same value. -/
theorem C81_round_trip_partial (hkn : S.Knows cat) (value : FieldWrite → Option V)
    (w : FieldWrite) (hw : t.writes.find? (fun x => x.column.name = w.column.name) = some w)
    (hd : asksDefault q w.field = false)
    {q' : Query} {t' : TargetInfo} (h' : Built cat q' t') (r : FieldRead) (hr : r ∈ t'.reads) (hcol : r.column = w.column)
    (hs : TakesNull r → SaysNull w) (hv : r.field.coalesceValue = [])
    (hcast : ∀ u, S.cast w.column.type.nameFmt u = u)
    (htext : w.column.type.oid = Oid.uuid → ∀ u, S.cast b!"text" u = u)
    (v : V) (hval : value w = some v) (o : Joined V) :
    S.readField ((q'.rel.id, S.recordRow value q t) :: o) r = some v := by
  have hrow : S.recordRow value q t r.column.name = S.stored w (some v) := by
    rw [hcol, Server.recordRow, Server.written, hw]
    simp [hd, hval]
  unfold Server.readField
  rw [read_own h' hkn r hr, hrow]
  have hid : S.cast w.column.type.nameFmt = id := funext hcast
  unfold Server.stored
  by_cases hn : nullableColumn w.column ∧ ¬ SaysNull w
  · have hrep : Replaces r := .inr ⟨by rw [hcol]; exact hn.1, fun ht => hn.2 (hs ht)⟩
    rw [if_pos hn]
    simp only [hrep, and_true, hcol, hv, if_true, standIn, ne_eq, not_true, if_false, nullLit]
    by_cases hu : w.column.type.oid = Oid.uuid
    · simp only [hu, if_true]
      split
      · rename_i x hx
        split at hx
        · cases hx
        · simp only [Option.map_some, Option.some.injEq, hid, id] at hx
          rw [htext hu, ← hx]
      · rename_i hx
        split at hx
        · rename_i he; simpa using he.symm
        · simp at hx
    · simp only [hu, if_false]
      cases hz : w.column.type.zeroValue with
      | none => simp
      | some z =>
        simp only
        split
        · rename_i x hx
          split at hx
          · cases hx
          · simp only [Option.map_some, Option.some.injEq, hid, id] at hx
            rw [← hx]
        · rename_i hx
          split at hx
          · rename_i he
            simp [← he, hid]
          · simp at hx
  · rw [if_neg hn]
    simp only [Option.some.injEq]
    split
    · rename_i hc
      rw [hcol] at hc
      exact htext hc.1.1 v
    · rfl

end
end Verif.Generator
