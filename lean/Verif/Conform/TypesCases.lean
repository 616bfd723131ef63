import Verif.Typesutil.Time
import Verif.Conform.Base

/-
The cases of the tests of package typesutil: /repo/internal/typesutil/predicates_test.go and utils_test.go, with
the types of /repo/internal/typesutil/testdata.

This file is written by /verif/tools/typescases.py; do not edit it by hand.
-/
namespace Verif.Conform.TypesTest
open Verif.Typesutil

/-- A case: the name of the type, what is given to the predicate, and the expected answer. -/
structure Case (α : Type) where
  name : Bytes
  arg : α
  want : Bool

/-- A named type's object; no predicate asked about here looks at methods. -/
def obj (name path pkg : Bytes) : Analysis.NamedInfo := { name := name, pkg := some ⟨path, pkg⟩ }

/-- predicates_test.go:12-37: IsError -/
def caseIsError : List (Case TRef) := [
  ⟨b!"IsErrorTest1", .basic b!"string", false⟩,
  ⟨b!"IsErrorTest2", .slice (.named none b!"error"), false⟩,
  ⟨b!"IsErrorTest3", .named none b!"error", true⟩]

/-- predicates_test.go:39-64: IsString -/
def caseIsString : List (Case TRef) := [
  ⟨b!"IsStringTest1", .named none b!"error", false⟩,
  ⟨b!"IsStringTest2", .slice (.basic b!"string"), false⟩,
  ⟨b!"IsStringTest3", .basic b!"string", true⟩]

/-- predicates_test.go:66-92: IsEmptyInterface -/
def caseIsEmptyInterface : List (Case TRef) := [
  ⟨b!"IsEmptyInterfaceTest1", .basic b!"string", false⟩,
  ⟨b!"IsEmptyInterfaceTest2", .slice (.iface 0), false⟩,
  ⟨b!"IsEmptyInterfaceTest3", .iface 1, false⟩,
  ⟨b!"IsEmptyInterfaceTest4", .iface 0, true⟩]

/-- predicates_test.go:94-121: IsTime -/
def caseIsTime : List (Case Analysis.Ty) := [
  ⟨b!"IsTimeTest1", .basic .string b!"string", false⟩,
  ⟨b!"IsTimeTest2", .slice (.named (obj b!"Time" b!"time" b!"time") (.struct .nil)), false⟩,
  ⟨b!"IsTimeTest3", .named (obj b!"Time" b!"time" b!"time") (.struct .nil), true⟩,
  ⟨b!"IsTimeTest4", .named (obj b!"CustomTime" b!"path/to/test" b!"testdata") (.struct (.ofList [(emb b!"Timer"
      (.named (obj b!"Timer" b!"time" b!"time") (.struct .nil))), (emb b!"Time" (.named
      (obj b!"Time" b!"time" b!"time") (.struct .nil)))])), true⟩,
  ⟨b!"IsTimeTest5", .named (obj b!"CustomTime2" b!"path/to/test" b!"testdata") (.struct
      (.ofList [(emb b!"CustomTime" (.named (obj b!"CustomTime" b!"path/to/test" b!"testdata") (.struct
      (.ofList [(emb b!"Timer" (.named (obj b!"Timer" b!"time" b!"time") (.struct .nil))), (emb b!"Time" (.named
      (obj b!"Time" b!"time" b!"time") (.struct .nil)))]))))])), false⟩]

/-- predicates_test.go:123-148: IsSqlDriverValue -/
def caseIsSqlDriverValue : List (Case TRef) := [
  ⟨b!"IsSqlDriverValueTest1", .basic b!"string", false⟩,
  ⟨b!"IsSqlDriverValueTest2", .slice (.named (some b!"database/sql/driver") b!"Value"), false⟩,
  ⟨b!"IsSqlDriverValueTest3", .named (some b!"database/sql/driver") b!"Value", true⟩]

/-- predicates_test.go:150-178: IsDirective -/
def caseIsDirective : List (Case (Bytes × Analysis.Ty)) := [
  ⟨b!"IsDirectiveTest1", (b!"Column", .basic .string b!"string"), false⟩,
  ⟨b!"IsDirectiveTest2", (b!"Column", .slice (.named (obj b!"Column" b!"github.com/frk/gosql" b!"gosql") (.struct
      (.ofList [(low b!"_isdir" (.struct .nil))])))), false⟩,
  ⟨b!"IsDirectiveTest3", (b!"Column", .named (obj b!"Column" b!"path/to/test" b!"testdata") (.struct .nil)), false⟩,
  ⟨b!"IsDirectiveTest4", (b!"Relation", .named (obj b!"Relation" b!"path/to/test" b!"testdata") (.struct
      (.ofList [(emb b!"Relation" (.named (obj b!"Relation" b!"github.com/frk/gosql" b!"gosql") (.struct
      (.ofList [(low b!"_isdir" (.struct .nil))]))))]))), false⟩,
  ⟨b!"IsDirectiveTest5", (b!"Column", .named (obj b!"Column" b!"github.com/frk/gosql" b!"gosql") (.struct
      (.ofList [(low b!"_isdir" (.struct .nil))]))), true⟩]

/-- predicates_test.go:180-206: ImplementsScanner -/
def caseImplementsScanner : List (Case Named) := [
  ⟨b!"ImplementsScannerTest1", { declared := [] }, false⟩,
  ⟨b!"ImplementsScannerTest2", { declared := [⟨b!"Scan", ⟨[], [], false⟩, false⟩] }, false⟩,
  ⟨b!"ImplementsScannerTest3", { declared := [⟨b!"Scan", ⟨[.iface 0], [.named none b!"error",
      .named none b!"error"], false⟩, false⟩] }, false⟩,
  ⟨b!"ImplementsScannerTest4", { declared := [⟨b!"Scan", ⟨[.slice (.iface 0)], [.named none b!"error"], true⟩,
      false⟩] }, false⟩,
  ⟨b!"ImplementsScannerTest5", { declared := [⟨b!"Scan", ⟨[.iface 0], [.named none b!"error"], false⟩, false⟩] },
      true⟩]

/-- predicates_test.go:208-236: ImplementsValuer -/
def caseImplementsValuer : List (Case Named) := [
  ⟨b!"ImplementsValuerTest1", { declared := [] }, false⟩,
  ⟨b!"ImplementsValuerTest2", { declared := [⟨b!"Value", ⟨[], [], false⟩, false⟩] }, false⟩,
  ⟨b!"ImplementsValuerTest3", { declared := [⟨b!"Value", ⟨[.iface 0], [.named
      (some b!"database/sql/driver") b!"Value", .named none b!"error"], false⟩, false⟩] }, false⟩,
  ⟨b!"ImplementsValuerTest4", { declared := [⟨b!"Value", ⟨[], [.named (some b!"database/sql/driver") b!"Value"],
      false⟩, false⟩] }, false⟩,
  ⟨b!"ImplementsValuerTest5", { declared := [⟨b!"Value", ⟨[], [.named none b!"error"], false⟩, false⟩] }, false⟩,
  ⟨b!"ImplementsValuerTest6", { declared := [⟨b!"Value", ⟨[], [.named none b!"error", .named
      (some b!"database/sql/driver") b!"Value"], false⟩, false⟩] }, false⟩,
  ⟨b!"ImplementsValuerTest7", { declared := [⟨b!"Value", ⟨[], [.named (some b!"database/sql/driver") b!"Value",
      .named none b!"error"], false⟩, false⟩] }, true⟩]

/-- predicates_test.go:238-263: ImplementsAfterScanner -/
def caseImplementsAfterScanner : List (Case Named) := [
  ⟨b!"ImplementsAfterScannerTest1", { declared := [] }, false⟩,
  ⟨b!"ImplementsAfterScannerTest2", { declared := [⟨b!"AfterScan", ⟨[], [.named none b!"error"], false⟩, false⟩] },
      false⟩,
  ⟨b!"ImplementsAfterScannerTest3", { declared := [⟨b!"AfterScan", ⟨[.iface 0], [], false⟩, false⟩] }, false⟩,
  ⟨b!"ImplementsAfterScannerTest4", { declared := [⟨b!"AfterScan", ⟨[], [], false⟩, false⟩] }, true⟩]

/-- predicates_test.go:265-292: ImplementsErrorHandler -/
def caseImplementsErrorHandler : List (Case Named) := [
  ⟨b!"ImplementsErrorHandlerTest1", { declared := [] }, false⟩,
  ⟨b!"ImplementsErrorHandlerTest2", { declared := [⟨b!"HandleError", ⟨[], [.named none b!"error"], false⟩,
      false⟩] }, false⟩,
  ⟨b!"ImplementsErrorHandlerTest3", { declared := [⟨b!"HandleError", ⟨[.named none b!"error"], [], false⟩,
      false⟩] }, false⟩,
  ⟨b!"ImplementsErrorHandlerTest4", { declared := [⟨b!"HandleError", ⟨[.iface 0], [.named none b!"error"], false⟩,
      false⟩] }, false⟩,
  ⟨b!"ImplementsErrorHandlerTest5", { declared := [⟨b!"HandleError", ⟨[.named none b!"error"], [.iface 0], false⟩,
      false⟩] }, false⟩,
  ⟨b!"ImplementsErrorHandlerTest6", { declared := [⟨b!"HandleError", ⟨[.named none b!"error"],
      [.named none b!"error"], false⟩, false⟩] }, true⟩]

/-- predicates_test.go:294-322: ImplementsErrorInfoHandler -/
def caseImplementsErrorInfoHandler : List (Case Named) := [
  ⟨b!"ImplementsErrorInfoHandlerTest1", { declared := [] }, false⟩,
  ⟨b!"ImplementsErrorInfoHandlerTest2", { declared := [⟨b!"HandleErrorInfo", ⟨[], [.named none b!"error"], false⟩,
      false⟩] }, false⟩,
  ⟨b!"ImplementsErrorInfoHandlerTest3", { declared := [⟨b!"HandleErrorInfo", ⟨[.named none b!"error"], [], false⟩,
      false⟩] }, false⟩,
  ⟨b!"ImplementsErrorInfoHandlerTest4", { declared := [⟨b!"HandleErrorInfo", ⟨[.iface 0], [.named none b!"error"],
      false⟩, false⟩] }, false⟩,
  ⟨b!"ImplementsErrorInfoHandlerTest5", { declared := [⟨b!"HandleErrorInfo", ⟨[.named none b!"error"], [.iface 0],
      false⟩, false⟩] }, false⟩,
  ⟨b!"ImplementsErrorInfoHandlerTest6", { declared := [⟨b!"HandleErrorInfo", ⟨[.named none b!"error"],
      [.named none b!"error"], false⟩, false⟩] }, false⟩,
  ⟨b!"ImplementsErrorInfoHandlerTest7", { declared := [⟨b!"HandleErrorInfo", ⟨[.ptr (.named
      (some b!"github.com/frk/gosql") b!"ErrorInfo")], [.named none b!"error"], false⟩, false⟩] }, true⟩]

/-- predicates_test.go:324-348: ImplementsJSONMarshaler -/
def caseImplementsJSONMarshaler : List (Case Named) := [
  ⟨b!"ImplementsJSONMarshalerTest1", { declared := [] }, false⟩,
  ⟨b!"ImplementsJSONMarshalerTest2", { declared := [⟨b!"UnmarshalJSON", ⟨[.slice (.basic b!"byte")],
      [.named none b!"error"], false⟩, false⟩] }, false⟩,
  ⟨b!"ImplementsJSONMarshalerTest3", { declared := [⟨b!"MarshalJSON", ⟨[], [.slice (.basic b!"byte"),
      .named none b!"error"], false⟩, false⟩] }, true⟩]

/-- predicates_test.go:350-374: ImplementsJSONUnmarshaler -/
def caseImplementsJSONUnmarshaler : List (Case Named) := [
  ⟨b!"ImplementsJSONUnmarshalerTest1", { declared := [] }, false⟩,
  ⟨b!"ImplementsJSONUnmarshalerTest2", { declared := [⟨b!"MarshalJSON", ⟨[], [.slice (.basic b!"byte"),
      .named none b!"error"], false⟩, false⟩] }, false⟩,
  ⟨b!"ImplementsJSONUnmarshalerTest3", { declared := [⟨b!"UnmarshalJSON", ⟨[.slice (.basic b!"byte")],
      [.named none b!"error"], false⟩, false⟩] }, true⟩]

/-- predicates_test.go:376-400: ImplementsXMLMarshaler -/
def caseImplementsXMLMarshaler : List (Case Named) := [
  ⟨b!"ImplementsXMLMarshalerTest1", { declared := [] }, false⟩,
  ⟨b!"ImplementsXMLMarshalerTest2", { declared := [⟨b!"UnmarshalXML", ⟨[.ptr (.named
      (some b!"encoding/xml") b!"Decoder"), .named (some b!"encoding/xml") b!"StartElement"],
      [.named none b!"error"], false⟩, false⟩] }, false⟩,
  ⟨b!"ImplementsXMLMarshalerTest3", { declared := [⟨b!"MarshalXML", ⟨[.ptr (.named
      (some b!"encoding/xml") b!"Encoder"), .named (some b!"encoding/xml") b!"StartElement"],
      [.named none b!"error"], false⟩, false⟩] }, true⟩]

/-- predicates_test.go:402-426: ImplementsXMLUnmarshaler -/
def caseImplementsXMLUnmarshaler : List (Case Named) := [
  ⟨b!"ImplementsXMLUnmarshalerTest1", { declared := [] }, false⟩,
  ⟨b!"ImplementsXMLUnmarshalerTest2", { declared := [⟨b!"MarshalXML", ⟨[.ptr (.named
      (some b!"encoding/xml") b!"Encoder"), .named (some b!"encoding/xml") b!"StartElement"],
      [.named none b!"error"], false⟩, false⟩] }, false⟩,
  ⟨b!"ImplementsXMLUnmarshalerTest3", { declared := [⟨b!"UnmarshalXML", ⟨[.ptr (.named
      (some b!"encoding/xml") b!"Decoder"), .named (some b!"encoding/xml") b!"StartElement"],
      [.named none b!"error"], false⟩, false⟩] }, true⟩]

/-- predicates_test.go:428-453: IsContext -/
def caseIsContext : List (Case TRef) := [
  ⟨b!"IsContextTest1", .basic b!"string", false⟩,
  ⟨b!"IsContextTest2", .slice (.named none b!"error"), false⟩,
  ⟨b!"IsContextTest3", .named (some b!"context") b!"Context", true⟩]

/-- predicates_test.go:455-482: IsStringMap -/
def caseIsStringMap : List (Case TRef) := [
  ⟨b!"IsStringMapTest1", .basic b!"string", false⟩,
  ⟨b!"IsStringMapTest2", .map (.basic b!"int") (.basic b!"string"), false⟩,
  ⟨b!"IsStringMapTest3", .map (.basic b!"string") (.basic b!"int"), false⟩,
  ⟨b!"IsStringMapTest4", .slice (.map (.basic b!"string") (.basic b!"string")), false⟩,
  ⟨b!"IsStringMapTest5", .map (.basic b!"string") (.basic b!"string"), true⟩]

/-- predicates_test.go:484-511: IsNiladicFunc -/
def caseIsNiladicFunc : List (Case TRef) := [
  ⟨b!"IsNiladicFuncTest1", .func 0 1, false⟩,
  ⟨b!"IsNiladicFuncTest2", .func 1 0, false⟩,
  ⟨b!"IsNiladicFuncTest3", .func 1 0, false⟩,
  ⟨b!"IsNiladicFuncTest4", .slice (.func 0 0), false⟩,
  ⟨b!"IsNiladicFuncTest5", .func 0 0, true⟩]

/-- predicates_test.go:513-535: ImplementsGosqlConn -/
def caseImplementsGosqlConn : List (Case Named) := [
  ⟨b!"ImplementsGosqlConnTest1", { declared := [⟨b!"Exec", ⟨[.basic b!"string", .slice (.iface 0)], [.named
      (some b!"database/sql") b!"Result", .named none b!"error"], true⟩, true⟩, ⟨b!"ExecContext", ⟨[.named
      (some b!"context") b!"Context", .basic b!"string", .slice (.iface 0)], [.named
      (some b!"database/sql") b!"Result", .named none b!"error"], true⟩, true⟩, ⟨b!"Query", ⟨[.basic b!"string",
      .slice (.iface 0)], [.ptr (.named (some b!"database/sql") b!"Rows"), .named none b!"error"], true⟩, true⟩,
      ⟨b!"QueryContext", ⟨[.named (some b!"context") b!"Context", .basic b!"string", .slice (.iface 0)], [.ptr
      (.named (some b!"database/sql") b!"Rows"), .named none b!"error"], true⟩, true⟩, ⟨b!"QueryRow",
      ⟨[.basic b!"string", .slice (.iface 0)], [.ptr (.named (some b!"database/sql") b!"Row")], true⟩, true⟩,
      ⟨b!"QueryRowContext", ⟨[.named (some b!"context") b!"Context", .basic b!"string", .slice (.iface 0)], [.ptr
      (.named (some b!"database/sql") b!"Row")], true⟩, true⟩] }, true⟩]

/-- utils_test.go:11-43: GetDirectiveName -/
def caseGetDirectiveName : List (Analysis.Ty × Bytes) := [
  (.named (obj b!"Time" b!"time" b!"time") (.struct .nil), b!""),
  (.named (obj b!"Column" b!"path/to/test" b!"testdata") (.struct .nil), b!""),
  (.named (obj b!"Relation" b!"path/to/test" b!"testdata") (.struct (.ofList [(emb b!"Relation" (.named
      (obj b!"Relation" b!"github.com/frk/gosql" b!"gosql") (.struct (.ofList [(low b!"_isdir"
      (.struct .nil))]))))])), b!""),
  (.struct .nil, b!""),
  (.basic .string b!"string", b!""),
  (.named (obj b!"Column" b!"github.com/frk/gosql" b!"gosql") (.struct (.ofList [(low b!"_isdir" (.struct .nil))])),
      b!"Column"),
  (.named (obj b!"Relation" b!"github.com/frk/gosql" b!"gosql") (.struct (.ofList [(low b!"_isdir"
      (.struct .nil))])), b!"Relation"),
  (.named (obj b!"RightJoin" b!"github.com/frk/gosql" b!"gosql") (.struct (.ofList [(low b!"_isdir"
      (.struct .nil))])), b!"RightJoin")]

/-- The number of cases. -/
def total : Nat := 86

end Verif.Conform.TypesTest
