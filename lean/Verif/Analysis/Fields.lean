import Verif.Analysis.Mode

/-
The fields of a record type: /repo/internal/analysis/analysis.go:423-518 (analyzeRelType),
:520-641 (analyzeFieldInfoList), :701-745 (iterators), :1990-2003 (parseCoalesceInfo),
:2015-2106 (filter column keys), and types.go:676-701, 806-813.

Simplifications: positions, `FieldMap` and `PkgLocal` (always equal to `PkgName` here) are left out.
The stack of loops of analyzeFieldInfoList is a recursion.  `relTypeCache` is a parameter and a
result; after an error its contents are not modelled, since the command stops.
-/
namespace Verif.Analysis

/-- What the analysis of a target is given: its package, and the configuration of the keys. -/
structure Env where
  pkgPath : Bytes
  keyTag : Bytes := []
  keySep : Bytes := b!"."
  keyBase : Bool := false
deriving Repr, DecidableEq

/-- types.go:223-248 FieldSelectorNode. -/
structure SelNode where
  name : Bytes
  tag : Tag := []
  typeName : Bytes := []
  typePkgPath : Bytes := []
  typePkgName : Bytes := []
  isImported : Bool := false
  isEmbedded : Bool := false
  isExported : Bool := true
  isPointer : Bool := false
  mode : FieldMode := modeDefault
deriving Repr, DecidableEq

/-- types.go:188-218 FieldInfo. -/
structure FieldInfo where
  name : Bytes
  type : TypeInfo
  selector : List SelNode := []
  isEmbedded : Bool := false
  isExported : Bool := true
  tag : Tag := []
  colIdent : ColIdent
  filterColumnKey : Bytes := []
  mode : FieldMode := modeDefault
  nullEmpty : Bool := false
  useDefault : Bool := false
  useAdd : Bool := false
  useCoalesce : Bool := false
  coalesceValue : Bytes := []
deriving Repr, DecidableEq

/-! types.go:676-701 -/
def FieldInfo.isReadOnly (f : FieldInfo) : Bool :=
  f.selector.any (·.mode.isReadOnly) || f.mode.isReadOnly
def FieldInfo.isWriteOnly (f : FieldInfo) : Bool :=
  f.selector.any (·.mode.isWriteOnly) || f.mode.isWriteOnly
def FieldInfo.excludeFromFilter (f : FieldInfo) : Bool :=
  f.selector.any (·.mode.canExcludeFilter) || f.mode.canExcludeFilter

/-! ### Coalesce -/

/-- analysis.go:45 `^coalesce$|^coalesce\((.*)\)$` on a text that begins with `coalesce`: the group,
empty for the first alternative and without a match.  (`.` does not match a newline.) -/
def coalesceGroup (opt : Bytes) : Bytes :=
  match opt.drop 8 with
  | '(' :: r =>
    match r.getLast? with
    | some ')' => if r.dropLast.contains '\n' then [] else r.dropLast
    | _ => []
  | _ => []

/-- analysis.go:1990-2003. -/
def parseCoalesceInfo (t : Tag) : Bool × Bytes :=
  match ((t.get b!"sql").drop 1).find? fun o => b!"coalesce".isPrefixOf o with
  | some o => (true, coalesceGroup o)
  | none => (false, [])

/-! ### Filter column keys -/

/-- `strconv.ParseBool`, an error counting as false. -/
def parseBool (s : Bytes) : Bool :=
  [b!"1", b!"t", b!"T", b!"TRUE", b!"true", b!"True"].contains s

/-- The three settings of a filter column key. -/
structure KeyConf where
  tag : Bytes
  sep : Bytes
  base : Bool
deriving Repr, DecidableEq

/-- analysis.go:2034-2050: one option of an `fck` tag. -/
def keyOption (c : KeyConf) (opt : Bytes) : KeyConf :=
  match firstSplit ':' opt with
  | none => c
  | some (k, v) =>
    if k = b!"tag" then { c with tag := v }
    else if k = b!"sep" then { c with sep := v }
    else if k = b!"base" then { c with base := parseBool v }
    else c

/-- analysis.go:2022-2028: the first node with an `fck` tag and the selector from there; the whole
selector if there is none. -/
def findKeyTag : List SelNode → List SelNode → List Bytes × List SelNode
  | all, [] => ([], all)
  | all, n :: ns =>
    if (n.tag.get b!"fck").length > 0 then (n.tag.get b!"fck", n :: ns) else findKeyTag all ns

/-- analysis.go:2019-2029. -/
def keySource (tag : Tag) (sel : List SelNode) : List Bytes × List SelNode :=
  if (tag.get b!"fck").length = 0 then findKeyTag sel sel else (tag.get b!"fck", sel)

/-- analysis.go:2073-2078 joinFieldName. -/
def joinFieldName (name : Bytes) (sel : List SelNode) (sep : Bytes) : Bytes :=
  sel.foldl (fun key n => key ++ (n.name ++ sep)) [] ++ name

/-- `strings.Join`. -/
def joinStrs (sep : Bytes) : List Bytes → Bytes
  | [] => []
  | [x] => x
  | x :: y :: r => x ++ sep ++ joinStrs sep (y :: r)

/-- The loop of analysis.go:2083-2093; `none` if a node is hidden. -/
def tagItems (t : Bytes) : List SelNode → Option (List Bytes)
  | [] => some []
  | n :: ns =>
    if n.tag.first t = b!"-" then none
    else if (n.tag.first t).length = 0 then tagItems t ns
    else (tagItems t ns).map (n.tag.first t :: ·)

/-- analysis.go:2081-2105 joinFieldTag. -/
def joinFieldTag (tag : Tag) (sel : List SelNode) (t sep : Bytes) : Bytes :=
  match tagItems t sel with
  | none => []
  | some items =>
    if tag.first t = b!"-" then []
    else if (tag.first t).length = 0 then joinStrs sep items
    else joinStrs sep (items ++ [tag.first t])

/-- analysis.go:2015-2070 parseFilterColumnKey. -/
def filterColumnKey (env : Env) (name : Bytes) (tag : Tag) (sel : List SelNode) : Bytes :=
  let src := keySource tag sel
  let c := src.1.foldl keyOption ⟨env.keyTag, env.keySep, env.keyBase⟩
  if c.tag.length > 0 then
    if c.base = false then joinFieldTag tag src.2 c.tag c.sep
    else if tag.first c.tag ≠ b!"-" then tag.first c.tag
    else []
  else if c.base = false then joinFieldName name src.2 c.sep
  else name

/-! ### Fields -/

/-- analysis.go:553-562: is the field ignored? -/
def ignoreField (imported : Bool) (h : FieldHdr) : Bool :=
  (h.tag.first b!"sql").length = 0 || h.tag.first b!"sql" = b!"-" || h.name = b!"_" ||
    (!h.exported && imported)

/-- analysis.go:596-609: the selector node of a field that is descended into. -/
def selNode (h : FieldHdr) (ti : TypeInfo) (mode : FieldMode) : SelNode :=
  let typ := if ti.kind = .ptr then (ti.elem?.getD ti).hdr else ti.hdr
  { name := h.name, tag := h.tag, isEmbedded := h.embedded, isExported := h.exported,
    typeName := typ.name, typePkgPath := typ.pkgPath, typePkgName := typ.pkgName,
    isImported := typ.isImported, isPointer := ti.kind = .ptr, mode := mode }

/-- analysis.go:616-637: a field that is a column. -/
def leafField (env : Env) (rs : RelSpace) (pfx : Bytes) (sel : List SelNode) (h : FieldHdr)
    (ti : TypeInfo) : R FieldInfo :=
  (parseColIdent rs (pfx ++ h.tag.first b!"sql")).bind fun cid =>
  (parseFieldMode h.tag).map fun mode =>
    { name := h.name, type := ti, selector := sel, isEmbedded := h.embedded,
      isExported := h.exported, tag := h.tag, colIdent := cid, mode := mode,
      nullEmpty := h.tag.hasOption b!"sql" b!"nullempty",
      useAdd := h.tag.hasOption b!"sql" b!"add",
      useDefault := h.tag.hasOption b!"sql" b!"default",
      useCoalesce := (parseCoalesceInfo h.tag).1,
      coalesceValue := (parseCoalesceInfo h.tag).2,
      filterColumnKey := filterColumnKey env h.name h.tag sel }

/-- analysis.go:585: is the field descended into? -/
def isDescend (h : FieldHdr) (ti : TypeInfo) : Bool :=
  ti.is .struct && b!">".isPrefixOf (h.tag.first b!"sql")

mutual
/-- analysis.go:520-641 analyzeFieldInfoList: the fields of one struct; `imported` is
`loop.typ.IsImported`. -/
def fieldsOf (env : Env) (rs : RelSpace) (pfx : Bytes) (sel : List SelNode) (imported : Bool) :
    Fields → R (List FieldInfo)
  | .nil => .ok []
  | .cons h t rest =>
    if ignoreField imported h then fieldsOf env rs pfx sel imported rest
    else
      (analyzeTypeInfo env.pkgPath t).bind fun p =>
        if isDescend h p.1 then
          (parseFieldMode h.tag).bind fun mode =>
          (descend env rs (pfx ++ (h.tag.first b!"sql").drop 1) (sel ++ [selNode h p.1 mode])
            p.1.hdr.isImported t).bind fun fs =>
          (fieldsOf env rs pfx sel imported rest).map (fs ++ ·)
        else
          (leafField env rs pfx sel h p.1).bind fun f =>
          (fieldsOf env rs pfx sel imported rest).map (f :: ·)
/-- Down to the struct of a type of kind struct or pointer to struct (`ftyp.(*types.Struct)`). -/
def descend (env : Env) (rs : RelSpace) (pfx : Bytes) (sel : List SelNode) (imported : Bool) :
    Ty → R (List FieldInfo)
  | .struct fs => fieldsOf env rs pfx sel imported fs
  | .named _ u => descend env rs pfx sel imported u
  | .ptr e => descend env rs pfx sel imported e
  | _ => .panic
end

/-! ### Record types -/

/-- types.go:114-143 RelType. -/
structure RelType where
  base : THdr := { kind := .invalid }
  isPointer : Bool := false
  isSlice : Bool := false
  isArray : Bool := false
  arrayLen : Nat := 0
  isIter : Bool := false
  iterMethod : Bytes := []
  isAfterScanner : Bool := false
  fields : List FieldInfo := []
deriving Repr, DecidableEq

/-- types.go:806-813. -/
def RelType.hasFieldWithColumn (rt : RelType) (n : Bytes) : Bool :=
  rt.fields.any fun f => f.colIdent.name = n

/-- `types.Type.String` of the types under which something is put into the cache; all other types
(unnamed structs, ...) are never found there. -/
def cacheKey : Ty → Option Bytes
  | .named i _ =>
    match i.pkg with
    | some p => some (p.path ++ b!"." ++ i.name)
    | none => some i.name
  | .ptr e => (cacheKey e).map (b!"*" ++ ·)
  | .slice e => (cacheKey e).map (b!"[]" ++ ·)
  | .array n e => (cacheKey e).map fun s => b!"[" ++ itoa n ++ b!"]" ++ s
  | .func h p =>
    if h.params = 1 ∧ h.results = 1 ∧ h.errResult then
      (cacheKey p).map fun s => b!"func(" ++ s ++ b!") error"
    else none
  | _ => none

/-- analysis.go:2350-2353. -/
abbrev Cache := List (Bytes × RelType)

/-- A named struct type, possibly behind a pointer: (pointer?, name, struct). -/
def namedStruct : Ty → Option (Bool × NamedInfo × Fields)
  | .named i (.struct fs) => some (false, i, fs)
  | .ptr (.named i (.struct fs)) => some (true, i, fs)
  | _ => none

/-- analysis.go:722-745 analyzeIteratorFunction. -/
def iterFunc : Ty → Option (Bool × NamedInfo × Fields)
  | .func h p =>
    if h.params = 1 ∧ h.results = 1 ∧ h.errResult then namedStruct p else none
  | _ => none

/-- analysis.go:702-719 analyzeIteratorInterface. -/
def iterIface (pkgPath : Bytes) (n : Option NamedInfo) (h : IfaceHdr) (m : Ty) :
    R (Option (Bool × NamedInfo × Fields)) :=
  if h.methods ≠ 1 then .ok none
  else (isAccessible pkgPath h.name0 h.exported0 n).map fun acc =>
    if acc then iterFunc m else none

/-- A named or unnamed type and its underlying type. -/
def splitNamed : Ty → Option NamedInfo × Ty
  | .named i u => (some i, u)
  | t => (none, t)

/-- analysis.go:472-482: slices, arrays and pointers taken off. -/
def stripPtr (rt : RelType) : Ty → RelType × Ty
  | .ptr e => ({ rt with isPointer := true }, e)
  | t => (rt, t)
def stripSeq : Ty → RelType × Ty
  | .slice e => stripPtr { isSlice := true } e
  | .array n e => stripPtr { isArray := true, arrayLen := n } e
  | t => stripPtr {} t

/-- analysis.go:455-491: what is known before the base type is looked at, the base type's name and
the base type's underlying type. -/
def relShape (env : Env) (t : Ty) : R (RelType × Option NamedInfo × Ty) :=
  match splitNamed t with
  | (n, .iface h m) =>
    (iterIface env.pkgPath n h m).bind fun o =>
      match o with
      | none => .err .badIterTypeInterface
      | some (p, i, fs) =>
        .ok ({ isPointer := p, isIter := true, iterMethod := h.name0 }, some i, .struct fs)
  | (_, .func h p) =>
    match iterFunc (.func h p) with
    | none => .err .badIterTypeFunc
    | some (p, i, fs) => .ok ({ isPointer := p, isIter := true }, some i, .struct fs)
  | (n, u) =>
    let s := stripSeq u
    if s.1.isSlice || s.1.isArray || s.1.isPointer then
      match s.2 with
      | .named i v => .ok (s.1, some i, v)
      | _ => .err .badRelType
    else .ok (s.1, n, u)

/-- analysis.go:493-501: the base type's name. -/
def relBase (env : Env) (rt : RelType) : Option NamedInfo → R RelType
  | none => .ok rt
  | some i =>
    match i.pkg with
    | none => .panic
    | some p =>
      .ok { rt with
        base := { kind := .invalid, name := i.name, pkgPath := p.path, pkgName := p.name,
                  isImported := p.path ≠ env.pkgPath },
        isAfterScanner := i.isAfterScanner }

/-- analysis.go:510-517: the kind and the fields. -/
def relFields (env : Env) (rs : RelSpace) (rt : RelType) (u : Ty) : R RelType :=
  match u with
  | .struct fs =>
    (fieldsOf env rs [] [] rt.base.isImported fs).map fun l =>
      { rt with base := { rt.base with kind := .struct }, fields := l }
  | _ => .err .badRelType

/-- analysis.go:503-508: into the cache, if the base type has a name. -/
def store (key : Option Bytes) (n : Option NamedInfo) (rt : RelType) (cache : Cache) : Cache :=
  match key, n with
  | some k, some _ => (k, rt) :: cache
  | _, _ => cache

/-- analysis.go:423-518 analyzeRelType. -/
def analyzeRelType (env : Env) (rs : RelSpace) (cache : Cache) (t : Ty) : R (RelType × Cache) :=
  match (cacheKey t).bind (List.lookup · cache) with
  | some rt => .ok (rt, cache)
  | none =>
    (relShape env t).bind fun s =>
    (relBase env s.1 s.2.1).bind fun rt =>
    (relFields env rs rt s.2.2).map fun rt => (rt, store (cacheKey t) s.2.1 rt cache)

end Verif.Analysis
