import Verif.Typesutil.Model
import Verif.Analysis.PropsWhere

/- C70: which types are taken to implement an interface. -/
namespace Verif.Typesutil
open Verif.Analysis (Res.bind_eq_ok Res.map_eq_ok)

/-! ### Interfaces and method sets, as in the language -/

/-- Aliases resolved; two types are identical if their normal forms are equal. -/
def TRef.norm : TRef → TRef
  | .basic n => .basic (if n = b!"byte" then b!"uint8" else if n = b!"rune" then b!"int32" else n)
  | .named p n => .named p n
  | .alias _ _ t => t.norm
  | .ptr e => .ptr e.norm
  | .slice e => .slice e.norm
  | .map k e => .map k.norm e.norm
  | .func p r => .func p r
  | .iface k => .iface k
  | .other x => .other x

def Sig.norm (s : Sig) : Sig :=
  { params := s.params.map TRef.norm, results := s.results.map TRef.norm, variadic := s.variadic }

/-- An interface: the names and signatures of its methods. -/
abbrev Iface := List (Bytes × Sig)

/-- A method set satisfies an interface. -/
def Implements (ms : List Method) (i : Iface) : Prop :=
  ∀ x ∈ i, ∃ m ∈ ms, m.name = x.1 ∧ m.sig.norm = x.2

/-- The method set of a pointer to the type, or of the type if it is an interface. -/
def Named.methodSet (t : Named) : List Method := t.iface.getD (t.declared ++ t.promoted)

/-- The method set of the type itself. -/
def Named.valueSet (t : Named) : List Method :=
  t.iface.getD ((t.declared ++ t.promoted).filter fun m => !m.ptrRecv)

def tString : TRef := .basic b!"string"
def tError : TRef := .named none b!"error"
def tAny : TRef := .iface 0
def tBytes : TRef := .slice (.basic b!"uint8")
def tSql (n : Bytes) : TRef := .named (some b!"database/sql") n
def tXml (n : Bytes) : TRef := .named (some b!"encoding/xml") n

def queryArgs : List TRef := [tString, .slice tAny]
def contextArgs : List TRef := [.named (some b!"context") b!"Context", tString, .slice tAny]

/-- gosql.Conn: /repo/gosql.go:22-41. -/
def conn : Iface :=
  [(b!"Exec", ⟨queryArgs, [tSql b!"Result", tError], true⟩),
   (b!"Query", ⟨queryArgs, [.ptr (tSql b!"Rows"), tError], true⟩),
   (b!"QueryRow", ⟨queryArgs, [.ptr (tSql b!"Row")], true⟩),
   (b!"ExecContext", ⟨contextArgs, [tSql b!"Result", tError], true⟩),
   (b!"QueryContext", ⟨contextArgs, [.ptr (tSql b!"Rows"), tError], true⟩),
   (b!"QueryRowContext", ⟨contextArgs, [.ptr (tSql b!"Row")], true⟩)]

def afterScanner : Iface := [(b!"AfterScan", ⟨[], [], false⟩)]
def errorHandler : Iface := [(b!"HandleError", ⟨[tError], [tError], false⟩)]
/-- The interface for the package at a path; the real one is at `gosqlPath`. -/
def errorInfoHandler (path : Bytes) : Iface :=
  [(b!"HandleErrorInfo", ⟨[.ptr (.named (some path) b!"ErrorInfo")], [tError], false⟩)]
def scanner : Iface := [(b!"Scan", ⟨[tAny], [tError], false⟩)]
def valuer : Iface := [(b!"Value", ⟨[], [.named (some b!"database/sql/driver") b!"Value", tError], false⟩)]
def jsonMarshaler : Iface := [(b!"MarshalJSON", ⟨[], [tBytes, tError], false⟩)]
def jsonUnmarshaler : Iface := [(b!"UnmarshalJSON", ⟨[tBytes], [tError], false⟩)]
def xmlMarshaler : Iface :=
  [(b!"MarshalXML", ⟨[.ptr (tXml b!"Encoder"), tXml b!"StartElement"], [tError], false⟩)]
def xmlUnmarshaler : Iface :=
  [(b!"UnmarshalXML", ⟨[.ptr (tXml b!"Decoder"), tXml b!"StartElement"], [tError], false⟩)]

/-- gosql.FilterConstructor: /repo/gosql.go:78-124. -/
def filterConstructor : Iface :=
  [(b!"Init", ⟨[.map tString tString, tString], [], false⟩),
   (b!"Col", ⟨[tString, tString, tAny], [], false⟩),
   (b!"And", ⟨[.func 0 0], [], false⟩),
   (b!"Or", ⟨[.func 0 0], [], false⟩)]

/-- The method that is asked for in addition; the real package is at `filterPath`. -/
def initV2 (path : Bytes) : Iface :=
  [(b!"InitV2", ⟨[.map tString (.named (some path) b!"Column"), tString], [], false⟩)]

/-- What holds of every type of a program. -/
structure Named.Proper (t : Named) : Prop where
  /-- an interface has no methods declared -/
  iface : t.iface ≠ none → t.declared = []
  names : (t.listed.map (·.name)).Nodup
  /-- the last parameter of a variadic function is a slice -/
  variadic : ∀ m ∈ t.listed ++ t.declared, m.sig.variadic = true → ∃ l e, m.sig.params = l ++ [.slice e]

/-- No alias but `any`. -/
def TRef.plain : TRef → Bool
  | .alias p n t => p = none && n = b!"any" && t = .iface 0
  | .ptr e | .slice e => e.plain
  | .map k e => k.plain && e.plain
  | _ => true

/-- The methods do not name types by aliases. -/
def Plain (ms : List Method) : Prop := ∀ m ∈ ms, ∀ t ∈ m.sig.params ++ m.sig.results, t.plain = true

/-! ### Types -/

theorem isString_norm {t : TRef} (h : isString t = true) : t.norm = tString := by
  cases t <;> simp [isString] at h
  subst h; rfl

theorem isError_norm {t : TRef} (h : isError t = true) : t.norm = tError := by
  cases t <;> simp [isError] at h
  obtain ⟨rfl, rfl⟩ := h; rfl

theorem unalias_norm : ∀ t : TRef, t.unalias.norm = t.norm
  | .alias _ _ t => by simp only [TRef.unalias, TRef.norm]; exact unalias_norm t
  | .basic _ | .named .. | .ptr _ | .slice _ | .map .. | .func .. | .iface _ | .other _ => rfl

theorem isEmptyInterface_norm {t : TRef} (h : isEmptyInterface t = true) : t.norm = tAny := by
  cases t with
  | alias p n t =>
    rw [isEmptyInterface] at h
    split at h
    · cases h
    · rw [TRef.norm, ← unalias_norm]
      cases hu : t.unalias <;> simp [hu] at h
      subst h; rfl
  | iface k => simp [isEmptyInterface] at h; subst h; rfl
  | _ => simp [isEmptyInterface] at h

theorem isEmptyInterfaceSlice_norm {t : TRef} (h : isEmptyInterfaceSlice t = true) : t.norm = .slice tAny := by
  cases t <;> simp [isEmptyInterfaceSlice] at h
  simp [TRef.norm, isEmptyInterface_norm h]

theorem isNamed_norm {p n : Bytes} {t : TRef} (h : isNamed p n t = true) : t.norm = .named (some p) n := by
  cases t with
  | named q m =>
    cases q <;> simp [isNamed] at h
    obtain ⟨rfl, rfl⟩ := h; rfl
  | _ => simp [isNamed] at h

theorem isNamedPtr_norm {p n : Bytes} {t : TRef} (h : isNamedPtr p n t = true) :
    t.norm = .ptr (.named (some p) n) := by
  cases t <;> simp [isNamedPtr] at h
  simp [TRef.norm, isNamed_norm h]

theorem isByteSlice_norm {t : TRef} (h : isByteSlice t = true) : t.norm = tBytes := by
  cases t with
  | slice e =>
    cases e <;> simp [isByteSlice] at h
    rcases h with rfl | rfl <;> rfl
  | _ => simp [isByteSlice] at h

theorem isStringMap_norm {t : TRef} (h : isStringMap t = true) : t.norm = .map tString tString := by
  cases t <;> simp [isStringMap] at h
  simp [TRef.norm, isString_norm h.1, isString_norm h.2]

theorem isNiladicFunc_norm {t : TRef} (h : isNiladicFunc t = true) : t.norm = .func 0 0 := by
  cases t <;> simp [isNiladicFunc] at h
  obtain ⟨rfl, rfl⟩ := h; rfl

theorem isXml_norm {n : Bytes} {t : TRef} (h : isXml n t = .ok true) : t.norm = tXml n := by
  cases t with
  | named q m =>
    cases q <;> simp [isXml] at h
    obtain ⟨rfl, rfl⟩ := h; rfl
  | _ => simp [isXml] at h

theorem isXmlPtr_norm {n : Bytes} {t : TRef} (h : isXmlPtr n t = .ok true) : t.norm = .ptr (tXml n) := by
  cases t <;> simp [isXmlPtr] at h
  simp [TRef.norm, isXml_norm h]

theorem isErrorInfoPtr_norm {t : TRef} (h : isErrorInfoPtr t = .ok true) :
    ∃ p, gosqlPath <:+ p ∧ t.norm = .ptr (.named (some p) b!"ErrorInfo") := by
  cases t with
  | ptr e =>
    cases e with
    | named q m =>
      cases q <;> simp [isErrorInfoPtr] at h
      obtain ⟨h, rfl⟩ := h
      exact ⟨_, h, rfl⟩
    | _ => simp [isErrorInfoPtr] at h
  | _ => simp [isErrorInfoPtr] at h

theorem isStringColumnMap_norm {t : TRef} (h : isStringColumnMap t = .ok true) :
    ∃ p, filterPath <:+ p ∧ t.norm = .map tString (.named (some p) b!"Column") := by
  cases t with
  | map k e =>
    rw [isStringColumnMap] at h
    split at h
    · cases h
    · rename_i hk
      cases e with
      | named q m =>
        cases q <;> simp [isFilterColumn] at h
        obtain ⟨rfl, h⟩ := h
        exact ⟨_, h, by simp [TRef.norm, isString_norm (t := k) (by simpa using hk)]⟩
      | _ => simp [isFilterColumn] at h
  | _ => simp [isStringColumnMap] at h

/-! #### The other way round -/

theorem norm_basic {t : TRef} {n : Bytes} (hp : t.plain = true) (h : t.norm = .basic n) :
    ∃ m, t = .basic m ∧ n = if m = b!"byte" then b!"uint8" else if m = b!"rune" then b!"int32" else m := by
  cases t with
  | basic m => simp only [TRef.norm, TRef.basic.injEq] at h; exact ⟨m, rfl, h.symm⟩
  | alias p m t =>
    simp only [TRef.plain, Bool.and_eq_true, decide_eq_true_eq] at hp
    rw [hp.2] at h
    cases h
  | _ => cases h

theorem norm_named {t : TRef} {p : Option Bytes} {n : Bytes} (hp : t.plain = true) (h : t.norm = .named p n) :
    t = .named p n := by
  cases t with
  | named q m => simpa [TRef.norm] using h
  | alias p m t =>
    simp only [TRef.plain, Bool.and_eq_true, decide_eq_true_eq] at hp
    rw [hp.2] at h
    cases h
  | _ => cases h

theorem norm_iface {t : TRef} {k : Nat} (hp : t.plain = true) (h : t.norm = .iface k) :
    t = .iface k ∨ t = .alias none b!"any" (.iface 0) := by
  cases t with
  | iface m => simp only [TRef.norm] at h; exact .inl h
  | alias p m t =>
    simp only [TRef.plain, Bool.and_eq_true, decide_eq_true_eq] at hp
    obtain ⟨⟨rfl, rfl⟩, rfl⟩ := hp
    exact .inr rfl
  | _ => cases h

theorem norm_ptr {t e : TRef} (hp : t.plain = true) (h : t.norm = .ptr e) :
    ∃ e', t = .ptr e' ∧ e'.plain = true ∧ e'.norm = e := by
  cases t with
  | ptr e' => simp only [TRef.norm, TRef.ptr.injEq] at h; exact ⟨e', rfl, hp, h⟩
  | alias p m t =>
    simp only [TRef.plain, Bool.and_eq_true, decide_eq_true_eq] at hp
    rw [hp.2] at h
    cases h
  | _ => cases h

theorem norm_slice {t e : TRef} (hp : t.plain = true) (h : t.norm = .slice e) :
    ∃ e', t = .slice e' ∧ e'.plain = true ∧ e'.norm = e := by
  cases t with
  | slice e' => simp only [TRef.norm, TRef.slice.injEq] at h; exact ⟨e', rfl, hp, h⟩
  | alias p m t =>
    simp only [TRef.plain, Bool.and_eq_true, decide_eq_true_eq] at hp
    rw [hp.2] at h
    cases h
  | _ => cases h

theorem norm_map {t k e : TRef} (hp : t.plain = true) (h : t.norm = .map k e) :
    ∃ k' e', t = .map k' e' ∧ k'.plain = true ∧ e'.plain = true ∧ k'.norm = k ∧ e'.norm = e := by
  cases t with
  | map k' e' =>
    simp only [TRef.norm, TRef.map.injEq] at h
    simp only [TRef.plain, Bool.and_eq_true] at hp
    exact ⟨k', e', rfl, hp.1, hp.2, h.1, h.2⟩
  | alias p m t =>
    simp only [TRef.plain, Bool.and_eq_true, decide_eq_true_eq] at hp
    rw [hp.2] at h
    cases h
  | _ => cases h

theorem norm_func {t : TRef} {p r : Nat} (hp : t.plain = true) (h : t.norm = .func p r) : t = .func p r := by
  cases t with
  | func q s => simpa [TRef.norm] using h
  | alias p m t =>
    simp only [TRef.plain, Bool.and_eq_true, decide_eq_true_eq] at hp
    rw [hp.2] at h
    cases h
  | _ => cases h

theorem isString_of {t : TRef} (hp : t.plain = true) (h : t.norm = tString) : isString t = true := by
  obtain ⟨m, rfl, hm⟩ := norm_basic hp h
  split at hm
  · cases hm
  · split at hm
    · cases hm
    · simp [isString, ← hm]

theorem isError_of {t : TRef} (hp : t.plain = true) (h : t.norm = tError) : isError t = true := by
  rw [norm_named hp h]; rfl

theorem isEmptyInterface_of {t : TRef} (hp : t.plain = true) (h : t.norm = tAny) : isEmptyInterface t = true := by
  rcases norm_iface hp h with rfl | rfl <;> rfl

theorem isEmptyInterfaceSlice_of {t : TRef} (hp : t.plain = true) (h : t.norm = .slice tAny) :
    isEmptyInterfaceSlice t = true := by
  obtain ⟨e, rfl, h1, h2⟩ := norm_slice hp h
  exact isEmptyInterface_of h1 h2

theorem isNamed_of {p n : Bytes} {t : TRef} (hp : t.plain = true) (h : t.norm = .named (some p) n) :
    isNamed p n t = true := by
  rw [norm_named hp h]; simp [isNamed]

theorem isNamedPtr_of {p n : Bytes} {t : TRef} (hp : t.plain = true) (h : t.norm = .ptr (.named (some p) n)) :
    isNamedPtr p n t = true := by
  obtain ⟨e, rfl, h1, h2⟩ := norm_ptr hp h
  exact isNamed_of h1 h2

theorem isByteSlice_of {t : TRef} (hp : t.plain = true) (h : t.norm = tBytes) : isByteSlice t = true := by
  obtain ⟨e, rfl, h1, h2⟩ := norm_slice hp h
  obtain ⟨m, rfl, hm⟩ := norm_basic h1 h2
  split at hm
  · rename_i he; simp [isByteSlice, he]
  · split at hm
    · cases hm
    · simp [isByteSlice, ← hm]

theorem isStringMap_of {t : TRef} (hp : t.plain = true) (h : t.norm = .map tString tString) :
    isStringMap t = true := by
  obtain ⟨k, e, rfl, h1, h2, h3, h4⟩ := norm_map hp h
  simp [isStringMap, isString_of h1 h3, isString_of h2 h4]

theorem isNiladicFunc_of {t : TRef} (hp : t.plain = true) (h : t.norm = .func 0 0) : isNiladicFunc t = true := by
  rw [norm_func hp h]; rfl

theorem isXml_of {n : Bytes} {t : TRef} (hp : t.plain = true) (h : t.norm = tXml n) : isXml n t = .ok true := by
  rw [norm_named hp h]; simp [isXml]

theorem isXmlPtr_of {n : Bytes} {t : TRef} (hp : t.plain = true) (h : t.norm = .ptr (tXml n)) :
    isXmlPtr n t = .ok true := by
  obtain ⟨e, rfl, h1, h2⟩ := norm_ptr hp h
  exact isXml_of h1 h2

theorem isErrorInfoPtr_of {p : Bytes} {t : TRef} (hs : gosqlPath <:+ p) (hp : t.plain = true)
    (h : t.norm = .ptr (.named (some p) b!"ErrorInfo")) : isErrorInfoPtr t = .ok true := by
  obtain ⟨e, rfl, h1, h2⟩ := norm_ptr hp h
  rw [norm_named h1 h2]; simp [isErrorInfoPtr, hs]

theorem isStringColumnMap_of {p : Bytes} {t : TRef} (hs : filterPath <:+ p) (hp : t.plain = true)
    (h : t.norm = .map tString (.named (some p) b!"Column")) : isStringColumnMap t = .ok true := by
  obtain ⟨k, e, rfl, h1, h2, h3, h4⟩ := norm_map hp h
  rw [norm_named h2 h4]; simp [isStringColumnMap, isString_of h1 h3, isFilterColumn, hs]

/-! ### Methods -/

theorem listed_subset {t : Named} {m : Method} (h : m ∈ t.listed) : m ∈ t.methodSet := by
  unfold Named.listed at h
  unfold Named.methodSet
  cases hi : t.iface <;> simp [hi] at h ⊢
  · exact .inl h
  · exact h

theorem declared_subset {t : Named} (hw : t.Proper) {m : Method} (h : m ∈ t.declared) : m ∈ t.methodSet := by
  unfold Named.methodSet
  cases hi : t.iface with
  | none => simp [h]
  | some l => rw [hw.iface (by simp [hi])] at h; cases h

theorem first_mem {n : Bytes} {ms : List Method} {s : Sig} (h : first n ms = some s) :
    ∃ m ∈ ms, m.name = n ∧ m.sig = s := by
  unfold first at h
  cases hf : ms.find? (fun m => m.name = n) with
  | none => simp [hf] at h
  | some m =>
    simp only [hf, Option.map_some, Option.some.injEq] at h
    exact ⟨m, List.mem_of_find?_eq_some hf, by simpa using List.find?_some hf, h⟩

theorem first_of {n : Bytes} {ms : List Method} (hn : (ms.map (·.name)).Nodup) {m : Method} (hm : m ∈ ms)
    (he : m.name = n) : first n ms = some m.sig := by
  subst he
  unfold first
  induction ms with
  | nil => cases hm
  | cons x ms ih =>
    simp only [List.map_cons, List.nodup_cons] at hn
    rcases List.mem_cons.1 hm with rfl | hm
    · simp
    · have hne : x.name ≠ m.name := fun e => hn.1 (List.mem_map.2 ⟨m, hm, e.symm⟩)
      simp only [List.find?_cons, hne, decide_false]
      exact ih hn.2 hm

/-- A method that is not variadic because its last parameter is no slice. -/
theorem not_variadic {t : Named} (hw : t.Proper) {m : Method} (hm : m ∈ t.listed ++ t.declared)
    (h : ∀ e, m.sig.params.getLast? ≠ some (.slice e)) : m.sig.variadic = false := by
  cases hv : m.sig.variadic with
  | false => rfl
  | true =>
    obtain ⟨l, e, he⟩ := hw.variadic m hm hv
    exact absurd (by rw [he]; simp) (h e)

end Verif.Typesutil
