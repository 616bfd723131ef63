import Verif.Generator.Gen
import Verif.Postgres.Check

/- What becomes of one target: internal/command/command.go:72-91, with the dispatch of
internal/analysis/analysis.go:91-125, internal/postgres/postgres.go:181-205 and
internal/generator/generator.go:37-52.  Of a refusal only the fact is modelled. -/
namespace Verif.Generator
open Verif.Analysis Verif.Postgres

/-- analysis.TargetStruct. -/
inductive TargetStruct where
  | query (q : Query)
  | filter (f : Analysis.FilterStruct)
deriving Repr

/-- analysis.go:91-125 Run, on the name of the type and its underlying type. -/
def analysisRun (env : Env) (cache : Cache) (n : Bytes) : Ty → R TargetStruct
  | .struct fs =>
    if (lower n).take 6 = b!"filter" then (analyzeFilter env cache n fs.toList).map fun r => .filter r.1
    else (analyzeQuery env cache n fs.toList).map fun s => .query s.q
  | _ => .panic

/-- postgres.go:181-205 Check. -/
def checkTarget (cat : Catalog) : TargetStruct → P TargetInfo
  | .query q => checkQuery cat q
  | .filter f => checkFilter cat f

/-- generator.go:46-51: does building the code end?  That of filters always does. -/
def builds (t : TargetInfo) : TargetStruct → Bool
  | .query q => (generate q t).isSome
  | .filter _ => true

inductive Outcome where
  | refused | built | crash
deriving Repr, DecidableEq

/-- command.go:72-91 for one target. -/
def outcomeOf (env : Env) (cat : Catalog) (cache : Cache) (n : Bytes) (u : Ty) : Outcome :=
  match analysisRun env cache n u with
  | .panic => .crash
  | .err _ => .refused
  | .ok s =>
    match checkTarget cat s with
    | .panic => .crash
    | .err _ => .refused
    | .ok t => if builds t s then .built else .crash

end Verif.Generator
