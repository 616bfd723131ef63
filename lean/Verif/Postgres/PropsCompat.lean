import Verif.Postgres.PropsFields
import Verif.Postgres.PropsTable

/-
Property C60: the generated call of a converter is well typed.  (And a lookup in the compatibility table,
for C59.)
-/
namespace Verif.Postgres
open Verif.Analysis

/-! ### C59: lookups -/

/-- **C59** No key has two rows, so that a lookup finds the only row. -/
theorem C59_lookup (r : CompRow) (h : r ∈ compTable) : lookupComp r.oid r.typmod1 r.lit = some r.entry := by
  have main : ∀ (l : List CompRow), keysDistinct l = true → r ∈ l →
      (l.find? fun x => x.oid = r.oid && x.typmod1 = r.typmod1 && x.lit = r.lit) = some r := by
    intro l
    induction l with
    | nil => intro _ h; cases h
    | cons x l ih =>
      intro hd hm
      simp only [keysDistinct, Bool.and_eq_true, List.all_eq_true] at hd
      rcases List.mem_cons.1 hm with rfl | hm
      · simp
      · have := hd.1 r hm
        rw [List.find?_cons_of_neg]
        · exact ih hd.2 hm
        · simp only [Bool.not_eq_true', Bool.and_eq_false_iff, beq_eq_false_iff_ne, ne_eq] at this
          simp only [Bool.and_eq_true, decide_eq_true_eq]
          rintro ⟨⟨a, b⟩, c⟩
          rcases this with (h | h) | h
          · exact h a.symm
          · exact h b.symm
          · exact h c.symm
  unfold lookupComp
  rw [main _ keys_distinct h]
  rfl

theorem lookupComp_mem {oid : Nat} {m : Bool} {lit : Bytes} {e : CompEntry}
    (h : lookupComp oid m lit = some e) : ∃ r ∈ compTable, r.oid = oid ∧ r.lit = lit ∧ r.entry = e := by
  unfold lookupComp at h
  rw [Option.map_eq_some_iff] at h
  obtain ⟨r, hr, rfl⟩ := h
  have := List.find?_some hr
  simp only [Bool.and_eq_true, decide_eq_true_eq] at this
  exact ⟨r, List.mem_of_find?_eq_some hr, this.1.1, this.2, rfl⟩

/-! ### C60: Go types -/

/-- How Go spells a type; `none` for the types that the table does not know (structs, functions, channels,
interfaces with methods).  A basic type has the name of its kind, `byte` or `rune`. -/
def spell : Ty → Option Bytes
  | .basic k nm =>
    if (k.isBasic ∧ nm = kindName k) ∨ (k = .uint8 ∧ nm = b!"byte") ∨ (k = .int32 ∧ nm = b!"rune") then some nm else none
  | .named i _ =>
    match i.pkg with
    | none => none
    | some p => if p.name = [] ∨ i.name = [] then none else some (p.name ++ b!"." ++ i.name)
  | .ptr e => (spell e).map fun s => b!"*" ++ s
  | .slice e => (spell e).map fun s => b!"[]" ++ s
  | .array n e => (spell e).map fun s => b!"[" ++ itoa n ++ b!"]" ++ s
  | .map k e =>
    match spell k, spell e with
    | some a, some b => some (b!"map[" ++ a ++ b!"]" ++ b)
    | _, _ => none
  | .iface h _ => if h.isEmpty then some b!"interface{}" else none
  | _ => none

theorem typeInfo_named {pkg : Bytes} {i : NamedInfo} {p : Pkg} (hp : i.pkg = some p) (hn : i.name ≠ [])
    (hpn : p.name ≠ []) (u : Ty) : ∀ {ti : TypeInfo} {b : Ty}, typeInfo pkg (some i) u = .ok (ti, b) →
      (∀ j v, u ≠ .named j v) → ∀ elide, literal ti elide = p.name ++ b!"." ++ i.name := by
  intro ti b h hu elide
  have hlen : i.name.length > 0 := List.length_pos_iff.2 hn
  have hplen : p.name.length > 0 := List.length_pos_iff.2 hpn
  cases u with
  | named j v => exact absurd rfl (hu j v)
  | basic k nm =>
    simp only [typeInfo, Res.ok.injEq, Prod.mk.injEq] at h
    obtain ⟨rfl, _⟩ := h
    simp [literal, namedHdr, hlen, namedLiteral, hp, hplen]
  | iface hh m =>
    simp only [typeInfo, Res.ok.injEq, Prod.mk.injEq] at h
    obtain ⟨rfl, _⟩ := h
    simp [literal, namedHdr, hlen, namedLiteral, hp, hplen]
  | map k e =>
    simp only [typeInfo, Res.bind_eq_ok, Res.map_eq_ok] at h
    obtain ⟨_, _, _, _, h⟩ := h
    simp only [Prod.mk.injEq] at h
    obtain ⟨rfl, _⟩ := h
    simp [literal, namedHdr, hlen, namedLiteral, hp, hplen]
  | ptr e | slice e | array n e =>
    simp only [typeInfo, Res.map_eq_ok] at h
    obtain ⟨_, _, h⟩ := h
    simp only [Prod.mk.injEq] at h
    obtain ⟨rfl, _⟩ := h
    simp [literal, namedHdr, hlen, namedLiteral, hp, hplen]
  | chan | func _ _ | struct _ =>
    simp only [typeInfo, Res.ok.injEq, Prod.mk.injEq] at h
    obtain ⟨rfl, _⟩ := h
    simp [literal, namedHdr, hlen, namedLiteral, hp, hplen]

/-- The underlying type of a named type is not itself a named one, everywhere in the type. -/
def Resolved : Ty → Prop
  | .named _ (.named _ _) => False
  | .ptr e | .slice e | .array _ e => Resolved e
  | .map k e => Resolved k ∧ Resolved e
  | _ => True

/-- The literal that the analyzer makes of a type is Go's spelling. -/
theorem literal_spell (pkg : Bytes) : ∀ (t : Ty) (ti : TypeInfo) (b : Ty) (s : Bytes), Resolved t →
    typeInfo pkg none t = .ok (ti, b) → spell t = some s → literal ti false = s
  | .basic k nm, ti, b, s, _, h, hs => by
    simp only [typeInfo, Res.ok.injEq, Prod.mk.injEq] at h
    obtain ⟨rfl, _⟩ := h
    simp only [spell] at hs
    split at hs
    · cases hs
      rename_i hh
      rcases hh with ⟨hb, rfl⟩ | ⟨rfl, rfl⟩ | ⟨rfl, rfl⟩
      · cases k <;> first | rfl | cases hb
      · rfl
      · rfl
    · cases hs
  | .named i u, ti, b, s, hr, h, hs => by
    rw [typeInfo] at h
    simp only [spell] at hs
    cases hp : i.pkg with
    | none => rw [hp] at hs; cases hs
    | some p =>
      rw [hp] at h hs
      simp only at h hs
      split at hs
      · cases hs
      · rename_i hne
        simp only [not_or] at hne
        cases hs
        refine typeInfo_named hp hne.2 hne.1 u h ?_ false
        rintro j v rfl
        exact hr
  | .ptr e, ti, b, s, hr, h, hs => by
    simp only [typeInfo, Res.map_eq_ok] at h
    obtain ⟨q, hq, h⟩ := h
    simp only [Prod.mk.injEq] at h
    obtain ⟨rfl, rfl⟩ := h
    simp only [spell, Option.map_eq_some_iff] at hs
    obtain ⟨s', hs', rfl⟩ := hs
    rw [← literal_spell pkg e q.1 q.2 s' hr hq hs']
    simp [literal, namedHdr]
  | .slice e, ti, b, s, hr, h, hs => by
    simp only [typeInfo, Res.map_eq_ok] at h
    obtain ⟨q, hq, h⟩ := h
    simp only [Prod.mk.injEq] at h
    obtain ⟨rfl, rfl⟩ := h
    simp only [spell, Option.map_eq_some_iff] at hs
    obtain ⟨s', hs', rfl⟩ := hs
    rw [← literal_spell pkg e q.1 q.2 s' hr hq hs']
    simp [literal, namedHdr]
  | .array n e, ti, b, s, hr, h, hs => by
    simp only [typeInfo, Res.map_eq_ok] at h
    obtain ⟨q, hq, h⟩ := h
    simp only [Prod.mk.injEq] at h
    obtain ⟨rfl, rfl⟩ := h
    simp only [spell, Option.map_eq_some_iff] at hs
    obtain ⟨s', hs', rfl⟩ := hs
    rw [← literal_spell pkg e q.1 q.2 s' hr hq hs']
    simp [literal, namedHdr]
  | .map k e, ti, b, s, hr, h, hs => by
    simp only [typeInfo, Res.bind_eq_ok, Res.map_eq_ok] at h
    obtain ⟨qk, hqk, q, hq, h⟩ := h
    simp only [Prod.mk.injEq] at h
    obtain ⟨rfl, rfl⟩ := h
    simp only [spell] at hs
    split at hs
    · rename_i a c ha hc
      cases hs
      rw [← literal_spell pkg k qk.1 qk.2 a hr.1 hqk ha, ← literal_spell pkg e q.1 q.2 c hr.2 hq hc]
      simp [literal, namedHdr]
    · cases hs
  | .iface hh m, ti, b, s, _, h, hs => by
    simp only [typeInfo, Res.ok.injEq, Prod.mk.injEq] at h
    obtain ⟨rfl, _⟩ := h
    simp only [spell] at hs
    split at hs
    · cases hs
      rename_i hh
      simp [literal, namedHdr, leafLiteral, hh]
    · cases hs
  | .chan, ti, b, s, _, h, hs => by cases hs
  | .func _ _, ti, b, s, _, h, hs => by cases hs
  | .struct _, ti, b, s, _, h, hs => by cases hs

/-- Not a pointer, and not a named type with a basic underlying type. -/
def Direct : Ty → Prop
  | .ptr _ => False
  | .named _ (.basic _ _) => False
  | .named _ (.ptr _) => False
  | _ => True

/-- For a field whose type is neither a pointer nor a named basic type, the type by which the table is
searched is the field's type. -/
theorem genericLiteral_spell (pkg : Bytes) (t : Ty) (ti : TypeInfo) (b : Ty) (s : Bytes) (hr : Resolved t)
    (hd : Direct t) (h : typeInfo pkg none t = .ok (ti, b)) (hs : spell t = some s) :
    genericLiteral ti = s := by
  have hl := literal_spell pkg t ti b s hr h hs
  have elim : ∀ {x : TypeInfo}, x.kind.isBasic = false → x.kind ≠ .ptr → genericLiteral x = literal x false := by
    intro x hb hp
    unfold genericLiteral
    rw [if_neg (by simp [hb])]
    cases x with
    | leaf h => rfl
    | keyed h k e => rfl
    | elem h e =>
      unfold literal
      split
      · rfl
      · have : h.kind ≠ .ptr := hp
        split <;> first | rfl | contradiction
  cases t with
  | ptr e => exact absurd hd id
  | basic k nm =>
    simp only [typeInfo, Res.ok.injEq, Prod.mk.injEq] at h
    obtain ⟨rfl, _⟩ := h
    simp only [spell] at hs
    split at hs
    · cases hs
      rename_i hh
      rcases hh with ⟨hb, rfl⟩ | ⟨rfl, rfl⟩ | ⟨rfl, rfl⟩
      · cases k <;> first | rfl | cases hb
      · rfl
      · rfl
    · cases hs
  | slice e | array n e =>
    simp only [typeInfo, Res.map_eq_ok] at h
    obtain ⟨q, hq, h⟩ := h
    simp only [Prod.mk.injEq] at h
    obtain ⟨rfl, rfl⟩ := h
    rw [elim (by rfl) (by simp [TypeInfo.kind, TypeInfo.hdr, namedHdr])]
    exact hl
  | map k e =>
    simp only [typeInfo, Res.bind_eq_ok, Res.map_eq_ok] at h
    obtain ⟨qk, hqk, q, hq, h⟩ := h
    simp only [Prod.mk.injEq] at h
    obtain ⟨rfl, rfl⟩ := h
    rw [elim (by rfl) (by simp [TypeInfo.kind, TypeInfo.hdr, namedHdr])]
    exact hl
  | iface hh m =>
    simp only [typeInfo, Res.ok.injEq, Prod.mk.injEq] at h
    obtain ⟨rfl, _⟩ := h
    rw [elim (by rfl) (by simp [TypeInfo.kind, TypeInfo.hdr, namedHdr])]
    exact hl
  | chan | func _ _ | struct _ => cases hs
  | named i u =>
    rw [typeInfo] at h
    split at h
    · cases h
    · rw [← hl]
      cases u with
      | named j v => exact absurd hr id
      | basic k nm => exact absurd hd id
      | ptr e => exact absurd hd id
      | slice e | array n e =>
        simp only [typeInfo, Res.map_eq_ok] at h
        obtain ⟨q, hq, h⟩ := h
        simp only [Prod.mk.injEq] at h
        obtain ⟨rfl, rfl⟩ := h
        exact elim (by rfl) (by simp [TypeInfo.kind, TypeInfo.hdr, namedHdr])
      | map k e =>
        simp only [typeInfo, Res.bind_eq_ok, Res.map_eq_ok] at h
        obtain ⟨qk, hqk, q, hq, h⟩ := h
        simp only [Prod.mk.injEq] at h
        obtain ⟨rfl, rfl⟩ := h
        exact elim (by rfl) (by simp [TypeInfo.kind, TypeInfo.hdr, namedHdr])
      | iface _ _ | chan | func _ _ | struct _ =>
        simp only [typeInfo, Res.ok.injEq, Prod.mk.injEq] at h
        obtain ⟨rfl, _⟩ := h
        exact elim (by rfl) (by simp [TypeInfo.kind, TypeInfo.hdr, namedHdr])

/-! ### C60: the calls -/

/-- A function of package pgsql that takes any value. -/
def AnyConv (name : Bytes) : Prop := ∃ f ∈ convFuncs, f.name = name ∧ f.kind = .both ∧ f.param = b!"interface{}"

theorem anyConv_json : AnyConv b!"JSON" :=
  ⟨⟨b!"JSON", b!"interface{}", .both⟩, anyFuncs_mem.1, rfl, rfl, rfl⟩
theorem anyConv_xml : AnyConv b!"XML" :=
  ⟨⟨b!"XML", b!"interface{}", .both⟩, anyFuncs_mem.2.1, rfl, rfl, rfl⟩

theorem AnyConv.valuer {n : Bytes} (h : AnyConv n) (l : Bytes) : IsValuerOf n l := by
  obtain ⟨f, hf, h1, h2, h3⟩ := h
  exact ⟨f, hf, h1, by rw [h2]; decide, .inr h3⟩
theorem AnyConv.scanner {n : Bytes} (h : AnyConv n) (l : Bytes) : IsScannerOf n l := by
  obtain ⟨f, hf, h1, h2, h3⟩ := h
  exact ⟨f, hf, h1, by rw [h2]; decide, .inr h3⟩

theorem typeCompat_row {cat : Catalog} {ct : PgType} {t : TypeInfo} {m : Bool} {e : CompEntry}
    (h : typeCompat cat ct t m = some e) : ∃ r ∈ compTable, r.lit = genericLiteral t ∧ r.entry = e := by
  unfold typeCompat at h
  simp only at h
  split at h
  · rename_i h1
    cases h
    obtain ⟨r, h1, _, h2, h3⟩ := lookupComp_mem h1
    exact ⟨r, h1, h2, h3⟩
  · split at h
    · obtain ⟨r, h1, _, h2, h3⟩ := lookupComp_mem h
      exact ⟨r, h1, h2, h3⟩
    · cases h

theorem docConv_conv {able ill : Bool} {t : TypeInfo} {conv v : Bytes} {e : DbErr}
    (h : docConv able ill t conv e = .ok v) : v = conv ∨ v = [] := by
  unfold docConv at h
  repeat' split at h
  all_goals first | (cases h; done) | (cases h; simp)

/-- The converter chosen to write a field takes the type by which the table is searched. -/
theorem writeConv_fits {cat : Catalog} {f : FieldInfo} {col : Column} {v : Bytes}
    (h : writeConv cat f col = .ok v) (hv : v ≠ []) : IsValuerOf v (genericLiteral f.type) := by
  unfold writeConv at h
  repeat' split at h
  · cases h; exact absurd rfl hv
  · rcases docConv_conv h with rfl | rfl
    · exact anyConv_json.valuer _
    · exact absurd rfl hv
  · rcases docConv_conv h with rfl | rfl
    · exact anyConv_xml.valuer _
    · exact absurd rfl hv
  · simp only [tableConv, Res.bind_eq_ok] at h
    obtain ⟨m, _, h⟩ := h
    split at h
    · rename_i ce hce
      cases h
      obtain ⟨r, hr, hl, rfl⟩ := typeCompat_row hce
      rw [← hl]
      exact C59_valuers r hr hv
    · cases h

/-- **C60** The call that converts the value of a field to be written is well typed, if the type of the
field is neither a pointer nor a named basic type. -/
theorem C60_write_partial {cat : Catalog} {f : FieldInfo} {col : Column} {v : Bytes} {pkg : Bytes} {t b : Ty}
    {s : Bytes} (h : writeConv cat f col = .ok v) (hv : v ≠ [])
    (ht : typeInfo pkg none t = .ok (f.type, b)) (hs : spell t = some s) (hr : Resolved t) (hd : Direct t) :
    IsValuerOf v s := by
  rw [← genericLiteral_spell pkg t f.type b s hr hd ht hs]
  exact writeConv_fits h hv

/-- **C60** The call that converts the address of a field to be read is well typed, if the type of the
field is neither a pointer nor a named type and not one of the two of `C59_not_inet`. -/
theorem C60_read_partial {cat : Catalog} {f : FieldInfo} {col : Column} {v : Bytes} {pkg : Bytes} {t b : Ty}
    {s : Bytes} (h : readConv cat f col = .ok v) (hv : v ≠ [])
    (ht : typeInfo pkg none t = .ok (f.type, b)) (hs : spell t = some s) (hr : Resolved t) (hd : Direct t)
    (hn : ∀ i u, t ≠ .named i u) (hi : s ≠ b!"[]net.IP" ∧ s ≠ b!"[]net.IPNet") :
    IsScannerOf v s := by
  have hg := genericLiteral_spell pkg t f.type b s hr hd ht hs
  unfold readConv at h
  repeat' split at h
  · cases h
  · cases h; exact absurd rfl hv
  · rcases docConv_conv h with rfl | rfl
    · exact anyConv_json.scanner _
    · exact absurd rfl hv
  · rename_i he
    cases h
    have : s = b!"interface{}" := by
      cases t with
      | named i u => exact absurd rfl (hn i u)
      | iface hh m =>
        simp only [spell] at hs
        split at hs
        · cases hs; rfl
        · cases hs
      | basic k nm =>
        simp only [typeInfo, Res.ok.injEq, Prod.mk.injEq] at ht
        rw [← ht.1] at he; simp [TypeInfo.hdr, namedHdr] at he
      | map k e =>
        simp only [typeInfo, Res.bind_eq_ok, Res.map_eq_ok] at ht
        obtain ⟨_, _, _, _, ht⟩ := ht
        simp only [Prod.mk.injEq] at ht
        rw [← ht.1] at he; simp [TypeInfo.hdr, namedHdr] at he
      | ptr e | slice e | array n e =>
        simp only [typeInfo, Res.map_eq_ok] at ht
        obtain ⟨_, _, ht⟩ := ht
        simp only [Prod.mk.injEq] at ht
        rw [← ht.1] at he; simp [TypeInfo.hdr, namedHdr] at he
      | chan | func _ _ | struct _ => cases hs
    subst this
    exact ⟨⟨b!"AnyToEmptyInterface", b!"*interface{}", .scanner⟩, anyFuncs_mem.2.2, rfl, by decide,
      .inl rfl⟩
  · rcases docConv_conv h with rfl | rfl
    · exact anyConv_xml.scanner _
    · exact absurd rfl hv
  · simp only [tableConv, Res.bind_eq_ok] at h
    obtain ⟨m, _, h⟩ := h
    split at h
    · rename_i ce hce
      cases h
      obtain ⟨r, hr, hl, rfl⟩ := typeCompat_row hce
      rw [← hg, ← hl]
      refine C59_scanners r hr hv ?_
      rintro ⟨_, h | h⟩
      · exact hi.1 (by rw [← hg, ← hl, h])
      · exact hi.2 (by rw [← hg, ← hl, h])
    · cases h

/-! ### Examples and exceptions -/

def textArrTy : PgType := { oid := Oid.textArr, nameFmt := b!"text[]", category := 'A', elem := Oid.text }
def charTy : PgType := { oid := Oid.bpchar, nameFmt := b!"character", category := 'S' }
def inetArrTy : PgType := { oid := Oid.inetArr, nameFmt := b!"inet[]", category := 'A', elem := Oid.inet }
def inetTy : PgType := { oid := Oid.inet, nameFmt := b!"inet", category := 'I' }
def convCat : Catalog := { types := [textTy, textArrTy, charTy, inetTy, inetArrTy] }

/-- The field of a Go type as the analyzer sees it, in package `p`. -/
def fieldOf (t : Ty) : Option FieldInfo :=
  match typeInfo b!"p" none t with
  | .ok (ti, _) => some { name := b!"F", type := ti, colIdent := { name := b!"f" } }
  | _ => none

/-- The converters chosen for writing and reading a field. -/
def convs (t : Ty) (ct : PgType) (typeMod : Int) : Option (P Bytes × P Bytes) :=
  (fieldOf t).map fun f =>
    (writeConv convCat f { num := 1, name := b!"f", type := ct, typeMod := typeMod },
     readConv convCat f { num := 1, name := b!"f", type := ct, typeMod := typeMod })

def stringsTy : Ty := .slice (.basic .string b!"string")
def netIPs : Ty :=
  .slice (.named { name := b!"IP", pkg := some { path := b!"net", name := b!"net" } }
    (.slice (.basic .uint8 b!"byte")))
def letterTy : Ty :=
  .named { name := b!"Letter", pkg := some { path := b!"p", name := b!"p" } } (.basic .uint8 b!"byte")

example : convs stringsTy textArrTy (-1) =
    some (.ok b!"TextArrayFromStringSlice", .ok b!"TextArrayToStringSlice") ∧
    spell stringsTy = some b!"[]string" := by decide +kernel

/-- **C60** For a pointer the converter of the type that it points to is chosen. -/
theorem C60_not_pointer :
    convs (.ptr stringsTy) textArrTy (-1) =
      some (.ok b!"TextArrayFromStringSlice", .ok b!"TextArrayToStringSlice") ∧
    spell (.ptr stringsTy) = some b!"*[]string" ∧
    ¬ IsValuerOf b!"TextArrayFromStringSlice" b!"*[]string" ∧
    ¬ IsScannerOf b!"TextArrayToStringSlice" b!"*[]string" := by
  refine ⟨by decide +kernel, by decide +kernel, ?_, ?_⟩ <;>
  · simp only [IsValuerOf, IsScannerOf]; decide +kernel

/-- **C60** For a named byte the converter of `byte` is chosen. -/
theorem C60_not_named :
    convs letterTy charTy 5 = some (.ok b!"BPCharFromByte", .ok b!"BPCharToByte") ∧
    spell letterTy = some b!"p.Letter" ∧
    ¬ IsValuerOf b!"BPCharFromByte" b!"p.Letter" ∧ ¬ IsScannerOf b!"BPCharToByte" b!"p.Letter" := by
  refine ⟨by decide +kernel, by decide +kernel, ?_, ?_⟩ <;>
  · simp only [IsValuerOf, IsScannerOf]; decide +kernel

/-- **C60** A slice of `net.IP` is read with the function for writing. -/
theorem C60_not_inet :
    convs netIPs inetArrTy (-1) = some (.ok b!"InetArrayFromIPSlice", .ok b!"InetArrayFromIPSlice") ∧
    spell netIPs = some b!"[]net.IP" ∧ ¬ IsScannerOf b!"InetArrayFromIPSlice" b!"[]net.IP" := by
  refine ⟨by decide +kernel, by decide +kernel, ?_⟩
  unfold IsScannerOf; decide +kernel

end Verif.Postgres
