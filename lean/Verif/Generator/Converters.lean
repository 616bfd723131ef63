import Verif.Config.Model
import Verif.Generator.FilterGen

/- internal/analysis/analysis.go:2355-2369: from the configuration to the functions that convert the values of
filters. The Go map is a list of keys and values with at most one value for a key. -/
namespace Verif.Generator
open Verif.Analysis

/-- analysis.go:2357 filterValueConverters. -/
abbrev ConverterMap := List (Bytes × GoIdent)

/-- `m[k] = id`. -/
def assignConverter (m : ConverterMap) (k : Bytes) (id : GoIdent) : ConverterMap :=
  (k, id) :: m.filter fun e => e.1 ≠ k

/-- analysis.go:2359-2368 AnalyzeFilterValueConverters: `m` is the global map before the call. -/
def analyzeConverters (m : ConverterMap) : List Config.Converter → ConverterMap
  | [] => m
  | c :: cs =>
    analyzeConverters
      (assignConverter m (c.type.pkgPath ++ b!"." ++ c.type.name) ⟨c.func.pkgPath, c.func.name⟩) cs

/-- command.go:55-57: what the generator has of the configuration when it builds filter types. -/
def filterConf (c : Config.Config) : FilterConf :=
  { quote := (c.bool .quoteIdentifiers).value, converters := analyzeConverters [] c.converters }

end Verif.Generator
