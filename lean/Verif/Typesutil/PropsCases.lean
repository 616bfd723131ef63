import Verif.Typesutil.Props2

/- C70: examples and exceptions. -/
namespace Verif.Typesutil

/-- A method for each of an interface, as `func (x *T)`. -/
def ofIface (i : Iface) : List Method := i.map fun x => { name := x.1, sig := x.2, ptrRecv := true }

/-- database/sql.DB, without its other methods. -/
def sqlDB : Named := { declared := ofIface conn ++ [⟨b!"Close", ⟨[], [tError], false⟩, true⟩] }

theorem sqlDB_proper : sqlDB.Proper where
  iface := by decide
  names := by decide
  variadic := by
    have : ∀ m ∈ sqlDB.listed ++ sqlDB.declared, m.sig.variadic = true →
        m.sig.params.dropLast ++ [.slice tAny] = m.sig.params := by decide
    exact fun m hm hv => ⟨_, tAny, (this m hm hv).symm⟩

instance (ms : List Method) (i : Iface) : Decidable (Implements ms i) := by unfold Implements; infer_instance
instance (ms : List Method) : Decidable (Plain ms) := by unfold Plain; infer_instance

/-- The hypotheses are fulfilled by a type of the standard library, and by the filter constructor of
package filter. -/
theorem C70_example : sqlDB.Proper ∧ Plain sqlDB.listed ∧ Implements sqlDB.listed conn ∧
    implementsConn sqlDB = .ok true ∧
    implementsFilterConstructor { declared := ofIface (filterConstructor ++ initV2 filterPath) } = .ok true ∧
    implementsScanner { declared := [⟨b!"Scan", ⟨[.alias none b!"any" tAny], [tError], false⟩, true⟩] } = true ∧
    implementsJSONMarshaler
      { declared := [⟨b!"MarshalJSON", ⟨[], [.slice (.basic b!"byte"), tError], false⟩, false⟩] } = true ∧
    implementsXMLUnmarshaler { iface := some (ofIface xmlUnmarshaler) } = .ok true ∧
    implementsErrorInfoHandler { declared := ofIface (errorInfoHandler gosqlPath) } = .ok true :=
  ⟨sqlDB_proper, by decide, by decide, by decide +kernel, by decide +kernel, by decide +kernel,
    by decide +kernel, by decide +kernel, by decide +kernel⟩

/-- **C70** `struct{ *sql.DB }` is a connection and is refused: its methods are promoted. -/
theorem C70_not_promoted :
    let t : Named := { promoted := ofIface conn }
    Implements t.methodSet conn ∧ implementsConn t = .ok false := by decide +kernel

/-- **C70** A type that embeds a scanner and valuer, or a handler of errors, is not seen to be one. -/
theorem C70_not_promoted_others :
    let t : Named := { promoted := ofIface (scanner ++ valuer ++ errorHandler ++ afterScanner) }
    Implements t.methodSet (scanner ++ valuer ++ errorHandler ++ afterScanner) ∧
    implementsScanner t = false ∧ implementsValuer t = false ∧ implementsErrorHandler t = false ∧
    implementsAfterScanner t = false := by decide +kernel

/-- **C70** The interface gosql.ErrorHandler itself is not taken for a handler. -/
theorem C70_not_handler_interface :
    let t : Named := { iface := some (ofIface errorHandler) }
    Implements t.methodSet errorHandler ∧ implementsErrorHandler t = false := by decide +kernel

/-- **C70** The interface gosql.FilterConstructor itself is not taken for a filter constructor: it has no
InitV2. -/
theorem C70_not_documented :
    let t : Named := { iface := some (ofIface filterConstructor) }
    Implements t.methodSet filterConstructor ∧ implementsFilterConstructor t = .ok false := by decide +kernel

/-- **C70** `type E = error; func (T) HandleError(E) E`. -/
theorem C70_not_alias :
    let e : TRef := .alias (some b!"x") b!"E" tError
    let t : Named := { declared := [⟨b!"HandleError", ⟨[e], [e], false⟩, false⟩] }
    Implements t.methodSet errorHandler ∧ implementsErrorHandler t = false := by decide +kernel

/-- **C70** `func (*T) UnmarshalJSON(...byte) error` is taken for the method of json.Unmarshaler. -/
theorem C70_not_variadic :
    let t : Named := { declared := [⟨b!"UnmarshalJSON", ⟨[tBytes], [tError], true⟩, true⟩] }
    implementsJSONUnmarshaler t = true ∧ ¬Implements t.methodSet jsonUnmarshaler := by decide +kernel

/-- **C70** `func (*T) Value() (driver.Value, error)`: the type counts as a valuer although only the pointer
is one. -/
theorem C70_not_value :
    let t : Named := { declared := ofIface valuer }
    implementsValuer t = true ∧ Implements t.methodSet valuer ∧ ¬Implements t.valueSet valuer := by
  decide +kernel

/-- **C70** ErrorInfo of another package whose path ends like gosql's. -/
theorem C70_not_path :
    let t : Named := { declared := ofIface (errorInfoHandler b!"x/github.com/frk/gosql") }
    implementsErrorInfoHandler t = .ok true ∧ ¬Implements t.methodSet (errorInfoHandler gosqlPath) := by
  decide +kernel

/-- **C70** A parameter of type error, `*error` or `map[string]error` where a type of some package is expected
makes the predicate panic. -/
theorem C70_not_total :
    implementsErrorInfoHandler
      { declared := [⟨b!"HandleErrorInfo", ⟨[.ptr tError], [tError], false⟩, false⟩] } = .panic ∧
    implementsXMLMarshaler
      { declared := [⟨b!"MarshalXML", ⟨[.ptr tError, tError], [tError], false⟩, false⟩] } = .panic ∧
    implementsFilterConstructor
      { declared := [⟨b!"InitV2", ⟨[.map tString tError, tString], [], false⟩, false⟩] } = .panic := by
  decide +kernel

end Verif.Typesutil
