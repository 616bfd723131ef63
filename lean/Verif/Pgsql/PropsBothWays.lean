import Verif.Pgsql.PropsPairs
import Verif.Postgres.PropsCompat

/-
Property C101: what is written through a field is read back through a field of the same type by the converter
that belongs to the first.
-/
namespace Verif.Pgsql

open Verif Verif.Analysis Verif.PgServer Verif.Postgres

/-! ### One field -/

/-- How the converter `v` for writing and the converter `s` for reading belong together, for a field of type `t`
and a column of type `ct`: the type converts itself in one direction; or both are the functions for documents;
or neither is there, and the text of the document is passed as it is; or a row of the table has them both. -/
inductive Matching (t : TypeInfo) (ct : PgType) : Bytes → Bytes → Prop
  | valuer (s : Bytes) (h : implementsValuer t = true) : Matching t ct [] s
  | scanner (v : Bytes) (h : implementsScanner t = true) : Matching t ct v []
  | json (h : isJSONType ct = true) : Matching t ct b!"JSON" b!"JSON"
  | xml (h : ct.oid = Oid.xml) : Matching t ct b!"XML" b!"XML"
  | raw (hd : isJSONType ct = true ∨ ct.oid = Oid.xml) (ht : isByteSlice t = true ∨ t.is .string = true) :
    Matching t ct [] []
  | row (r : CompRow) (h : r ∈ compTable) (hl : r.lit = genericLiteral t) :
    Matching t ct r.entry.valuer r.entry.scanner

/-- A text that makes a document of itself in one direction only. -/
def HalfDocument (marshals unmarshals : Bool) (t : TypeInfo) : Prop :=
  marshals ≠ unmarshals ∧ (isByteSlice t = true ∨ t.is .string = true)

/-- The fields and columns of `C101_not_json` and `C101_not_xml`, and those of `C101_not_any`. -/
structure Exceptional (t : TypeInfo) (ct : PgType) : Prop where
  ex : (isJSONType ct = true ∧ HalfDocument (implementsJSONMarshaler t) (implementsJSONUnmarshaler t) t) ∨
    (ct.oid = Oid.xml ∧ HalfDocument (implementsXMLMarshaler t) (implementsXMLUnmarshaler t) t) ∨
    (isJSONType ct = false ∧ t.hdr.isEmptyInterface = true)

theorem docConv_both {m u ill : Bool} {t : TypeInfo} {conv v s : Bytes} {e e' : DbErr}
    (hv : docConv m ill t conv e = .ok v) (hs : docConv u ill t conv e' = .ok s) (hn : ¬ HalfDocument m u t) :
    (v = conv ∧ s = conv) ∨ (v = [] ∧ s = [] ∧ (isByteSlice t = true ∨ t.is .string = true)) := by
  unfold HalfDocument at hn
  unfold docConv at hv hs
  cases m <;> cases u <;> simp at hn hv hs
  · repeat' split at hv
    all_goals first | (cases hv; done) | skip
    all_goals simp_all
  · repeat' split at hv
    all_goals first | (cases hv; done) | skip
    all_goals simp_all
  · repeat' split at hs
    all_goals first | (cases hs; done) | skip
    all_goals simp_all
  · simp_all

theorem tableConv_both {cat : Catalog} {col : Column} {t : TypeInfo} {v s : Bytes} {e e' : DbErr}
    (hv : tableConv cat col t (·.valuer) e = .ok v) (hs : tableConv cat col t (·.scanner) e' = .ok s) :
    ∃ r ∈ compTable, r.lit = genericLiteral t ∧ v = r.entry.valuer ∧ s = r.entry.scanner := by
  simp only [tableConv, Res.bind_eq_ok] at hv hs
  obtain ⟨m, hm, hv⟩ := hv
  obtain ⟨m', hm', hs⟩ := hs
  rw [hm] at hm'
  cases hm'
  cases hc : typeCompat cat col.type t m with
  | none => rw [hc] at hv; cases hv
  | some ce =>
    rw [hc] at hv hs
    cases hv
    cases hs
    obtain ⟨r, hr, hl, rfl⟩ := typeCompat_row hc
    exact ⟨r, hr, hl, rfl, rfl⟩

/-- **C101** If a field of some type may be written to a column and a field of the same type may be read from it,
the converters belong together. -/
theorem C101_field {cat : Catalog} {f g : FieldInfo} {col : Column} {v s : Bytes} (ht : f.type = g.type)
    (hv : writeConv cat f col = .ok v) (hs : readConv cat g col = .ok s) (hn : ¬ Exceptional f.type col.type) :
    Matching f.type col.type v s := by
  unfold writeConv at hv
  unfold readConv at hs
  rw [← ht] at hs
  split at hs
  · cases hs
  split at hs
  · cases hs
    exact .scanner _ (by assumption)
  split at hv
  · cases hv
    exact .valuer _ (by assumption)
  split at hv
  · rename_i hj
    rw [if_pos hj] at hs
    rcases docConv_both hv hs (fun h => hn ⟨.inl ⟨hj, h⟩⟩) with ⟨rfl, rfl⟩ | ⟨rfl, rfl, h⟩
    · exact .json hj
    · exact .raw (.inl hj) h
  rename_i hj
  rw [if_neg hj] at hs
  split at hs
  · rename_i he
    exact absurd ⟨.inr (.inr ⟨by simpa using hj, he⟩)⟩ hn
  split at hv
  · rename_i hx
    rw [if_pos hx] at hs
    rcases docConv_both hv hs (fun h => hn ⟨.inr (.inl ⟨hx, h⟩)⟩) with ⟨rfl, rfl⟩ | ⟨rfl, rfl, h⟩
    · exact .xml hx
    · exact .raw (.inr hx) h
  · rename_i hx
    rw [if_neg hx] at hs
    obtain ⟨r, hr, hl, rfl, rfl⟩ := tableConv_both hv hs
    exact .row r hr hl

/-- The types of the columns to which an `interface{}` may be written. -/
theorem any_rows : (compTable.all fun r => r.lit != b!"interface{}" || r.oid == Oid.json || r.oid == Oid.jsonb ||
    r.oid == Oid.xml) = true := by decide +kernel

/-- **C101** An `interface{}` is written to columns of documents only. -/
theorem C101_any {cat : Catalog} {f : FieldInfo} {col : Column} {v : Bytes} (hv : writeConv cat f col = .ok v)
    (hi : implementsValuer f.type = false) (hl : genericLiteral f.type = b!"interface{}") :
    isJSONType col.type = true ∨ col.type.oid = Oid.xml := by
  have row : ∀ oid m l e, lookupComp oid m l = some e → l = b!"interface{}" →
      oid = Oid.json ∨ oid = Oid.jsonb ∨ oid = Oid.xml := by
    intro oid m l e h hl
    obtain ⟨r, hr, rfl, h2, _⟩ := lookupComp_mem h
    have := List.all_eq_true.1 any_rows r hr
    rw [h2, hl] at this
    simpa [or_assoc] using this
  unfold writeConv at hv
  rw [if_neg (by simp [hi])] at hv
  split at hv
  · exact .inl (by assumption)
  split at hv
  · exact .inr (by assumption)
  rename_i hj hx
  exfalso
  simp only [tableConv, Res.bind_eq_ok] at hv
  obtain ⟨m, _, hv⟩ := hv
  cases hc : typeCompat cat col.type f.type m with
  | none => rw [hc] at hv; cases hv
  | some ce =>
    unfold typeCompat at hc
    simp only at hc
    have hno : ∀ o, o = col.type.oid ∨ o = Oid.text ∨ o = Oid.textArr →
        ¬ (o = Oid.json ∨ o = Oid.jsonb ∨ o = Oid.xml) := by
      rintro o (rfl | rfl | rfl)
      · rintro (h | h | h)
        · exact hj (by simp [isJSONType, h])
        · exact hj (by simp [isJSONType, h])
        · exact hx h
      · decide
      · decide
    have ho : ∀ o, o = (if col.type.isEnum = true then Oid.text else col.type.oid) →
        o = col.type.oid ∨ o = Oid.text ∨ o = Oid.textArr := by
      rintro o rfl
      split
      · exact .inr (.inl rfl)
      · exact .inl rfl
    split at hc
    · rename_i h1
      exact hno _ (ho _ rfl) (row _ _ _ _ h1 hl)
    · split at hc
      · refine hno _ ?_ (row _ _ _ _ hc hl)
        unfold salvageOid
        repeat' split
        all_goals first | exact .inr (.inl rfl) | exact .inr (.inr rfl) | exact .inl rfl
      · cases hc

/-! ### Two queries -/

theorem checkWrite_conv {c : Checker} {i : Nat} {f : FieldInfo} {w : FieldWrite}
    (h : checkWrite c i f = .ok (some w)) : w.field = f ∧ writeConv c.cat f w.column = .ok w.valuer := by
  unfold checkWrite at h
  split at h
  · cases h
  · simp only [Res.bind_eq_ok, Res.map_eq_ok] at h
    obtain ⟨_, _, v, hv, h⟩ := h
    cases h
    exact ⟨rfl, hv⟩

theorem checkReads_conv {c : Checker} {s : FieldInfo → Bool} {fs : List FieldInfo} {l : List (List FieldRead)}
    {r : FieldRead} (h : mapP (fun f => checkRead c f (s f)) fs = .ok l) (hr : r ∈ l.flatten) :
    readConv c.cat r.field r.column = .ok r.scanner := by
  rw [List.mem_flatten] at hr
  obtain ⟨ws, hws, hr⟩ := hr
  obtain ⟨x, hx, h⟩ := (mapP_ok.1 h).mem_right ws hws
  unfold checkRead at h
  split at h
  · split at h
    · cases h
    · cases h; cases hr
  · simp only [Res.map_eq_ok] at h
    obtain ⟨v, hv, rfl⟩ := h
    split at hr
    · cases hr
    · rw [List.mem_singleton] at hr
      subst hr
      exact hv

/-- The converter of every field that a query writes is the one that the checker chooses for its type and its
column. -/
theorem writes_conv {cat : Catalog} {q : Query} {ti : TargetInfo} (h : checkQuery cat q = .ok ti) :
    ∀ w, w ∈ ti.writes ∨ w ∈ ti.pkeys → writeConv cat w.field w.column = .ok w.valuer := by
  obtain ⟨c, hc, r1, r2, rw', _, _, hrel, _, hw, hp, _⟩ := checkQuery_ok h
  intro w hm
  by_cases hq : Writing q
  · obtain ⟨l, hl, e1, e2, _⟩ := checkRel_writing hq hrel
    have : ∃ y ∈ l, w ∈ y.writes ∨ w ∈ y.pkeys := by
      rcases hm with hm | hm
      · rw [hw, e1, List.mem_flatten] at hm
        obtain ⟨ws, h1, h2⟩ := hm
        obtain ⟨y, hy, rfl⟩ := List.mem_map.1 h1
        exact ⟨y, hy, .inl h2⟩
      · rw [hp, e2, List.mem_flatten] at hm
        obtain ⟨ws, h1, h2⟩ := hm
        obtain ⟨y, hy, rfl⟩ := List.mem_map.1 h1
        exact ⟨y, hy, .inr h2⟩
    obtain ⟨y, hy, hin⟩ := this
    obtain ⟨x, _, hxy⟩ := hl.mem_right y hy
    rcases checkRelWrite_ok hxy with ⟨_, _, rfl⟩ | ⟨w', hw', rfl⟩
    · rcases hin with h | h <;> cases h
    · have : w = w' := by
        rcases hin with h | h
        · simp only at h
          split at h
          · cases h
          · simpa using h
        · simp only at h
          split at h
          · simpa using h
          · cases h
      subst this
      obtain ⟨hf, hv⟩ := checkWrite_conv hw'
      rw [hf, ← hc.hcat]
      exact hv
  · rw [hw, hp, checkRel_not_writing hq hrel] at hm
    rcases hm with h | h <;> cases h

/-- The converter of every field that a query reads is the one that the checker chooses for its type and its
column. -/
theorem reads_conv {cat : Catalog} {q : Query} {ti : TargetInfo} (h : checkQuery cat q = .ok ti) :
    ∀ r ∈ ti.reads, readConv cat r.field r.column = .ok r.scanner := by
  obtain ⟨c, hc, r1, r2, rw', h1, h2, hrel, hr, _, _, _⟩ := checkQuery_ok h
  intro r hm
  rw [← hc.hcat]
  rw [hr, List.mem_append, List.mem_append] at hm
  rcases hm with (hm | hm) | hm
  · cases hq : q.ret with
    | none => rw [hq] at h1; cases h1; cases hm
    | some l =>
      rw [hq] at h1
      simp only [checkReturn] at h1
      split at h1
      · simp only [Res.map_eq_ok] at h1
        obtain ⟨l, hl, rfl⟩ := h1
        exact checkReads_conv hl hm
      · simp only [Res.bind_eq_ok, Res.map_eq_ok] at h1
        obtain ⟨sel, hsel, l, hl, rfl⟩ := h1
        exact checkReads_conv (s := fun _ => true) hl hm
  · cases hq : q.result with
    | none => rw [hq] at h2; cases h2; cases hm
    | some nt =>
      rw [hq] at h2
      simp only [checkResult, Res.map_eq_ok] at h2
      obtain ⟨l, hl, rfl⟩ := h2
      exact checkReads_conv (s := fun _ => true) hl hm
  · unfold checkRel at hrel
    split at hrel
    · cases hrel; cases hm
    · split at hrel
      · simp only [checkRelReads, Res.map_eq_ok] at hrel
        obtain ⟨_, ⟨l, hl, rfl⟩, rfl⟩ := hrel
        exact checkReads_conv hl hm
      · split at hrel
        · simp only [Res.map_eq_ok] at hrel
          obtain ⟨_, _, rfl⟩ := hrel
          cases hm
        · cases hrel; cases hm

/-- **C101** Of two accepted queries, the one writes a column and the other reads it, through fields of the same
type: then the converters in the generated code belong together. -/
theorem C101_queries {cat : Catalog} {q p : Query} {tq tp : TargetInfo} (hq : checkQuery cat q = .ok tq)
    (hp : checkQuery cat p = .ok tp) (w : FieldWrite) (hw : w ∈ tq.writes) (r : FieldRead) (hr : r ∈ tp.reads)
    (hc : w.column = r.column) (ht : w.field.type = r.field.type)
    (hn : ¬ Exceptional w.field.type w.column.type) :
    Matching w.field.type w.column.type w.valuer r.scanner := by
  have h1 := writes_conv hq w (.inl hw)
  have h2 := reads_conv hp r hr
  rw [← hc] at h2
  exact C101_field ht h1 h2 hn

/-- **C101** And what the one converter of a row of the table writes the other reads back, if both are there and
the row is none of the exceptions of C100. -/
theorem C101_trip {cat : Catalog} {q p : Query} {tq tp : TargetInfo} (hq : checkQuery cat q = .ok tq)
    (hp : checkQuery cat p = .ok tp) (w : FieldWrite) (hw : w ∈ tq.writes) (r : FieldRead) (hr : r ∈ tp.reads)
    (hc : w.column = r.column) (ht : w.field.type = r.field.type)
    (hn : ¬ Exceptional w.field.type w.column.type) (hv : w.valuer.length ≠ 0) (hs : r.scanner.length ≠ 0)
    (hu : (w.valuer, r.scanner) ∉ unpaired) (hna : (w.valuer, r.scanner) ∉ narrowPairs) (spare : Bytes) :
    (w.valuer = b!"JSON" ∧ r.scanner = b!"JSON" ∧ isJSONType w.column.type = true) ∨
    (w.valuer = b!"XML" ∧ r.scanner = b!"XML" ∧ w.column.type.oid = Oid.xml) ∨
    ∃ c, codecOf spare w.valuer r.scanner = some c ∧ c.RoundsTrip := by
  have hm := C101_queries hq hp w hw r hr hc ht hn
  generalize w.valuer = v at hm hv hu hna
  generalize r.scanner = s at hm hs hu hna
  cases hm with
  | valuer _ _ => exact absurd rfl hv
  | scanner _ _ => exact absurd rfl hs
  | json h => exact .inl ⟨rfl, rfl, h⟩
  | xml h => exact .inr (.inl ⟨rfl, rfl, h⟩)
  | raw _ _ => exact absurd rfl hv
  | row r h _ => exact .inr (.inr (C100_pairs spare r h hv hs hu hna))

/-! ### Examples and exceptions -/

def jsonTy : PgType := { oid := Oid.json, nameFmt := b!"json", category := 'U' }
def xmlTy : PgType := { oid := Oid.xml, nameFmt := b!"xml", category := 'U' }

/-- `type Code string` of package `p` with the given methods. -/
def codeTy (marshals unmarshals : Bool) : Ty :=
  .named { name := b!"Code", pkg := some { path := b!"p", name := b!"p" }
           isJSONMarshaler := marshals, isJSONUnmarshaler := unmarshals
           isXMLMarshaler := marshals, isXMLUnmarshaler := unmarshals } (.basic .string b!"string")
def anyTy : Ty := .iface { methods := 0, isEmpty := true } (.basic .string b!"string")
def tallyTy : Ty := .map (.basic .string b!"string") (.basic .int b!"int")

/-- A database with the relation `notes (tags text[], body json)`. -/
def notesCat : Catalog :=
  { types := [textTy, textArrTy, jsonTy]
    rels := [(b!"notes",
      { columns := [{ num := 1, name := b!"tags", typeOid := Oid.textArr },
                    { num := 2, name := b!"body", typeOid := Oid.json }] })] }

/-- A query on `notes` with the fields `tags` and `body` of the given types. -/
def notesQuery (kind : QKind) (tags body : Ty) : Option Query :=
  match typeInfo b!"p" none tags, typeInfo b!"p" none body with
  | .ok (a, _), .ok (b, _) =>
    some { typeName := b!"Q", kind := kind
           rel := { fieldName := b!"Note", id := { name := b!"notes", alias := b!"n" }
                    type := { fields := [
                      { name := b!"Tags", type := a, colIdent := { name := b!"tags" }, mode := modeDefault },
                      { name := b!"Body", type := b, colIdent := { name := b!"body" }, mode := modeDefault }] } } }
  | _, _ => none

/-- The converters for writing in an insert and for reading in a select. -/
def notesConvs (tags body : Ty) : Option (List Bytes × List Bytes) :=
  match (notesQuery .insert tags body).map (checkQuery notesCat),
      (notesQuery .select tags body).map (checkQuery notesCat) with
  | some (.ok i), some (.ok s) => some (i.writes.map (·.valuer), s.reads.map (·.scanner))
  | _, _ => none

/-- **C101** An insert and a select of the same records. -/
theorem C101_example : notesConvs stringsTy tallyTy =
    some ([b!"TextArrayFromStringSlice", b!"JSON"], [b!"TextArrayToStringSlice", b!"JSON"]) := by decide +kernel

/-- **C101** A string without methods holds the text of the document. -/
theorem C101_raw : notesConvs stringsTy (codeTy false false) =
    some ([b!"TextArrayFromStringSlice", []], [b!"TextArrayToStringSlice", []]) ∧
    notesConvs stringsTy (codeTy true true) =
    some ([b!"TextArrayFromStringSlice", b!"JSON"], [b!"TextArrayToStringSlice", b!"JSON"]) := by decide +kernel

/-- **C101** does not hold for a string type that has `MarshalJSON` but not `UnmarshalJSON`: an insert writes the
document that the method makes, and a select reads the text of that document, quotes included, into the field.
The other way round, the text of the field is written as it is and read as a document. -/
theorem C101_not_json : notesConvs stringsTy (codeTy true false) =
    some ([b!"TextArrayFromStringSlice", b!"JSON"], [b!"TextArrayToStringSlice", []]) ∧
    notesConvs stringsTy (codeTy false true) =
    some ([b!"TextArrayFromStringSlice", []], [b!"TextArrayToStringSlice", b!"JSON"]) := by decide +kernel

theorem lone_rows : (compTable.all fun r => !(r.entry.valuer == b!"JSON" && r.entry.scanner == []) &&
    !(r.entry.valuer == [] && r.entry.scanner == b!"JSON") && !(r.entry.scanner == b!"AnyToEmptyInterface")) = true := by
  decide +kernel

/-- **C101** Those converters do not belong together, for no type without the methods of database/sql. -/
theorem C101_lone (t : TypeInfo) (ct : PgType) (hv : implementsValuer t = false) (hs : implementsScanner t = false) :
    ¬ Matching t ct b!"JSON" [] ∧ ¬ Matching t ct [] b!"JSON" ∧ ∀ v, ¬ Matching t ct v b!"AnyToEmptyInterface" := by
  have row : ∀ v s, Matching t ct v s → v ≠ s → ∃ r ∈ compTable, r.entry.valuer = v ∧ r.entry.scanner = s := by
    intro v s h hne
    cases h with
    | valuer _ h => rw [hv] at h; cases h
    | scanner _ h => rw [hs] at h; cases h
    | json | xml | raw => exact absurd rfl hne
    | row r h _ => exact ⟨r, h, rfl, rfl⟩
  refine ⟨fun h => ?_, fun h => ?_, fun v h => ?_⟩
  · obtain ⟨r, hr, e1, e2⟩ := row _ _ h (by decide)
    have := List.all_eq_true.1 lone_rows r hr
    simp [e1, e2] at this
  · obtain ⟨r, hr, e1, e2⟩ := row _ _ h (by decide)
    have := List.all_eq_true.1 lone_rows r hr
    simp [e1, e2] at this
  · have hne : v ≠ b!"AnyToEmptyInterface" → False := fun hne => by
      obtain ⟨r, hr, e1, e2⟩ := row _ _ h hne
      have := List.all_eq_true.1 lone_rows r hr
      simp [e2] at this
    by_cases hvv : v = b!"AnyToEmptyInterface"
    · generalize hs' : b!"AnyToEmptyInterface" = s' at h
      cases h with
      | valuer _ h => rw [hv] at h; cases h
      | scanner _ h => rw [hs] at h; cases h
      | json | xml | raw => cases hs'
      | row r hr _ =>
        have := List.all_eq_true.1 lone_rows r hr
        simp [← hs'] at this
    · exact hne hvv

/-- **C101** does not hold for a string type that has one of the two methods for XML. -/
theorem C101_not_xml : convs (codeTy true false) xmlTy (-1) = some (.ok b!"XML", .ok []) ∧
    convs (codeTy false true) xmlTy (-1) = some (.ok [], .ok b!"XML") := by decide +kernel

/-- **C101** does not hold for an `interface{}` and a column of type xml: it is written as a document, and read as
what the driver returns. -/
theorem C101_not_any : convs anyTy xmlTy (-1) = some (.ok b!"XML", .ok b!"AnyToEmptyInterface") ∧
    convs anyTy jsonTy (-1) = some (.ok b!"JSON", .ok b!"JSON") ∧
    convs anyTy textTy (-1) = some (.err .columnFieldTypeWrite, .ok b!"AnyToEmptyInterface") := by decide +kernel

end Verif.Pgsql
