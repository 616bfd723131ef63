import Verif.Analysis.Types

/-
Field modes: /repo/internal/analysis/fieldmode.go, and the accessors of types.go:676-701.
-/
namespace Verif.Analysis

/-- fieldmode.go:7 (`uint`, 64 bits). -/
abbrev FieldMode := BitVec 64

/-! fieldmode.go:9-19 -/
def modeSelect : FieldMode := 1#64 <<< 0
def modeFilter : FieldMode := 1#64 <<< 1
def modeInsert : FieldMode := 1#64 <<< 2
def modeUpdate : FieldMode := 1#64 <<< 3
def modeNotnull : FieldMode := 1#64 <<< 4
def modeRead : FieldMode := modeSelect ||| modeFilter
def modeWrite : FieldMode := modeInsert ||| modeUpdate
def modeDefault : FieldMode := modeRead ||| modeWrite

/-- fieldmode.go:21-23. -/
def FieldMode.has (m v : FieldMode) : Bool := (m &&& v) ≠ 0#64

/-- `m &= ^v`. -/
def FieldMode.clear (m v : FieldMode) : FieldMode := m &&& ~~~v
/-- `m |= v`. -/
def FieldMode.add (m v : FieldMode) : FieldMode := m ||| v

/-- fieldmode.go:35-47: the deprecated options. -/
def oldOption (m : FieldMode) (opt : Bytes) : FieldMode :=
  if opt = b!"ro" then m.clear modeWrite
  else if opt = b!"wo" then m.clear modeRead
  else if opt = b!"xf" then m.clear modeFilter
  else if opt = b!"nn" then m.add modeNotnull
  else m

/-- fieldmode.go:53-70: a letter after `-`. -/
def minusLetter (m : FieldMode) (c : Char) : FieldMode :=
  if c = 'r' then m.clear modeRead
  else if c = 'w' then m.clear modeWrite
  else if c = 's' then m.clear modeSelect
  else if c = 'f' then m.clear modeFilter
  else if c = 'i' then m.clear modeInsert
  else if c = 'u' then m.clear modeUpdate
  else if c = 'N' then m.add modeNotnull
  else m

/-- fieldmode.go:72-89: a letter after `+`. -/
def plusLetter (m : FieldMode) (c : Char) : FieldMode :=
  if c = 'r' then m.add modeRead
  else if c = 'w' then m.add modeWrite
  else if c = 's' then m.add modeSelect
  else if c = 'f' then m.add modeFilter
  else if c = 'i' then m.add modeInsert
  else if c = 'u' then m.add modeUpdate
  else if c = 'N' then m.clear modeNotnull
  else m

/-- fieldmode.go:32-91: one option; `opt[0]` panics on the empty one. -/
def modeOption (m : FieldMode) (opt : Bytes) : R FieldMode :=
  match opt with
  | [] => .panic
  | c :: cs =>
    .ok (if c = '-' then cs.foldl minusLetter (oldOption m opt)
      else if c = '+' then cs.foldl plusLetter (oldOption m opt)
      else oldOption m opt)

def modeOptions (m : FieldMode) : List Bytes → R FieldMode
  | [] => .ok m
  | o :: os => (modeOption m o).bind fun m => modeOptions m os

/-- fieldmode.go:25-94 parseFieldMode. -/
def parseFieldMode (t : Tag) : R FieldMode :=
  match t.get b!"sql" with
  | [] => .ok modeDefault
  | _ :: opts => modeOptions modeDefault opts

/-! fieldmode.go:98-125 -/
def FieldMode.canInsert (m : FieldMode) : Bool := m.has modeInsert
def FieldMode.canUpdate (m : FieldMode) : Bool := m.has modeUpdate
def FieldMode.canSelect (m : FieldMode) : Bool := m.has modeSelect
def FieldMode.canExcludeFilter (m : FieldMode) : Bool := !m.has modeFilter
def FieldMode.treatAsNotNull (m : FieldMode) : Bool := m.has modeNotnull
def FieldMode.isReadOnly (m : FieldMode) : Bool := m.canSelect && !m.canInsert && !m.canUpdate
def FieldMode.isWriteOnly (m : FieldMode) : Bool := (m.canInsert || m.canUpdate) && !m.canSelect

end Verif.Analysis
