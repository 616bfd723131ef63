import Verif.Conform.TestCat

/-
The database of the tests as a catalog.
-/
namespace Verif.Conform
open Verif.Postgres

/-- `SELECT pg_typeof(lit)`: the answers for the literals of the tests. -/
def testLitOid (lit : Bytes) : Option Nat :=
  if lit.length > 0 && lit.all Char.isDigit then some 23
  else if lit = b!"true" || lit = b!"false" then some 16
  else if lit.length > 1 && lit.head? = some '\'' && lit.getLast? = some '\'' && lit.countP (· = '\'') = 2
    then some 705
  else none

def testCat : Catalog :=
  { types := testTypes
    ops := testOps.flatMap fun o => o.2.map fun p => ⟨o.1, p.1, p.2⟩
    casts := testCasts.map fun c => ⟨c.1, c.2.1, c.2.2⟩
    procs := testProcs, rels := testRels, litOid := testLitOid }

end Verif.Conform
