import Verif.Analysis.Ident
import Verif.Typesutil.Model

/-
The configuration: /repo/internal/config/types.go, config.go, /repo/cmd/gosql/main.go:11-19.

An option of the same Go type is an index into a function rather than a field of a struct.  Package flag has
split the command line into flags and their values; package encoding/json has parsed the file.  JSON keys
are compared exactly or without regard to the case of ASCII letters; the other foldings of encoding/json
(`ſ` for `s`, the Kelvin sign for `k`) are left out, as is the reuse of the elements of
`filter_value_converters` when the key occurs twice.
-/
namespace Verif.Config
open Verif.Analysis

/-- Why a configuration is refused. -/
inductive CErr where
  | badBool | badGoType | badObjectIdent | badJson | unknownFlag
  | missingDsn | badFormat | badKeyTag | badSeparator
  | argLoad | argKind | argMethods | argUnknown
deriving Repr, DecidableEq

abbrev R := Res CErr

inductive Json where
  | null
  | bool (b : Bool)
  | num (text : Bytes)
  | str (s : Bytes)
  | arr (l : List Json)
  | obj (l : List (Bytes × Json))

/-! ### Options -/

/-- types.go:14-17, 56-59, 109-112. -/
structure Opt (α : Type) where
  value : α
  isSet : Bool := false
deriving Repr, DecidableEq

/-- types.go:30-34 String.Set. -/
def setString (_ : Opt Bytes) (v : Bytes) : Opt Bytes := { value := v, isSet := true }

/-- types.go:37-51 String.UnmarshalJSON. -/
def jsonString (o : Opt Bytes) (j : Json) : R (Opt Bytes) :=
  if o.isSet then .ok o
  else
    match j with
    | .null => .ok o
    | .str s => .ok { value := s, isSet := true }
    | _ => .err .badJson

/-- strconv.ParseBool. -/
def parseBool? (s : Bytes) : Option Bool :=
  if [b!"1", b!"t", b!"T", b!"TRUE", b!"true", b!"True"].contains s then some true
  else if [b!"0", b!"f", b!"F", b!"FALSE", b!"false", b!"False"].contains s then some false
  else none

/-- types.go:77-87 Bool.Set. -/
def setBool (o : Opt Bool) (v : Bytes) : R (Opt Bool) :=
  if v.length = 0 then .ok o
  else
    match parseBool? v with
    | some b => .ok { value := b, isSet := true }
    | none => .err .badBool

/-- types.go:90-104 Bool.UnmarshalJSON. -/
def jsonBool (o : Opt Bool) (j : Json) : R (Opt Bool) :=
  if o.isSet then .ok o
  else
    match j with
    | .null => .ok o
    | .bool b => .ok { value := b, isSet := true }
    | _ => .err .badJson

/-- types.go:125-131 StringSlice.Set. -/
def setSlice (o : Opt (List Bytes)) (v : Bytes) : Opt (List Bytes) :=
  if v.length = 0 then o else { value := o.value ++ [v], isSet := true }

/-- An element of a []string: null leaves the zero value. -/
def strElem : Json → R Bytes
  | .null => .ok []
  | .str s => .ok s
  | _ => .err .badJson

def strElems : List Json → R (List Bytes)
  | [] => .ok []
  | j :: js => (strElem j).bind fun s => (strElems js).map fun l => s :: l

/-- types.go:134-150 StringSlice.UnmarshalJSON. -/
def jsonSlice (o : Opt (List Bytes)) (j : Json) : R (Opt (List Bytes)) :=
  if o.isSet then .ok o
  else
    match j with
    | .null => .ok o
    | .arr l => (strElems l).map fun v => if v.length > 0 then { value := v, isSet := true } else o
    | _ => .err .badJson

/-- types.go:155-162 GoType. -/
structure GoType where
  name : Bytes := []
  pkgPath : Bytes := []
  pkgName : Bytes := []
  isPtr : Bool := false
  isSet : Bool := false
deriving Repr, DecidableEq

/-- types.go:170-175 GoType.String. -/
def GoType.text (t : GoType) : Bytes :=
  if t.isPtr then b!"*" ++ t.pkgPath ++ b!"." ++ t.name else t.pkgPath ++ b!"." ++ t.name

/-- types.go:186-190: what precedes the last dot. -/
def withPkg (t : GoType) : Bytes → GoType
  | '*' :: p => { t with pkgPath := p, isPtr := true }
  | p => { t with pkgPath := p }

/-- types.go:178-195 GoType.Set. -/
def setGoType (t : GoType) (v : Bytes) : R GoType :=
  if v.length = 0 then .ok t
  else
    match lastSplit '.' v with
    | none => .err .badGoType
    | some p => .ok { withPkg t p.1 with name := p.2, isSet := true }

/-- types.go:198-211 GoType.UnmarshalJSON. -/
def jsonGoType (t : GoType) (j : Json) : R GoType :=
  if t.isSet then .ok t
  else
    match j with
    | .null => .ok t
    | .str s => setGoType t s
    | _ => .err .badJson

/-- types.go:215-219 ObjectIdent. -/
structure ObjectIdent where
  pkgPath : Bytes := []
  name : Bytes := []
  isSet : Bool := false
deriving Repr, DecidableEq

/-- types.go:227-233 ObjectIdent.String. -/
def ObjectIdent.text (o : ObjectIdent) : Bytes :=
  if o.name.length > 0 then o.pkgPath ++ b!"." ++ o.name else o.pkgPath

/-- The class of types.go:235: a word character, or one in the range from '.' to '/'. -/
def objChar (c : Char) : Bool := Rx.wordChar c || ('.'.toNat ≤ c.toNat && c.toNat ≤ '/'.toNat)

/-- types.go:235: `^\w`, any number of the class, `\w\.[A-Za-z_]\w*$`. -/
def rxObjId : Rx :=
  .seq (.cls Rx.wordChar) (.seq (.star (.cls objChar)) (.seq (.cls Rx.wordChar) (.seq (Rx.chr '.') Rx.ident)))

/-- types.go:238-250 ObjectIdent.Set. -/
def setObject (o : ObjectIdent) (v : Bytes) : R ObjectIdent :=
  if v.length = 0 then .ok o
  else if !rxObjId.matches v then .err .badObjectIdent
  else
    match lastSplit '.' v with
    | none => .panic
    | some p => .ok { pkgPath := p.1, name := p.2, isSet := true }

/-- types.go:253-268 ObjectIdent.UnmarshalJSON. -/
def jsonObject (o : ObjectIdent) (j : Json) : R ObjectIdent :=
  if o.isSet then .ok o
  else
    match j with
    | .null => .ok o
    | .str s => setObject o s
    | _ => .err .badJson

/-! ### The configuration -/

inductive StrOpt where
  | workingDirectory | outputFileNameFormat | databaseDSN | filterColumnKeyTag
  | filterColumnKeySeparator | methodName
deriving Repr, DecidableEq

inductive BoolOpt where
  | recursive | quoteIdentifiers | filterColumnKeyBase | methodWithContext
deriving Repr, DecidableEq

inductive SliceOpt where
  | inputFiles | inputFileRegexps
deriving Repr, DecidableEq

/-- config.go:106-111. -/
structure Converter where
  type : ObjectIdent := {}
  func : ObjectIdent := {}
deriving Repr, DecidableEq

/-- config.go:24-104. -/
structure Config where
  str : StrOpt → Opt Bytes
  bool : BoolOpt → Opt Bool
  slice : SliceOpt → Opt (List Bytes)
  argType : GoType
  converters : List Converter

/-- config.go:113-131 DefaultConfig. -/
def defaultConfig : Config where
  str
    | .workingDirectory => { value := b!"." }
    | .outputFileNameFormat => { value := b!"%s_gosql.go" }
    | .databaseDSN => { value := [] }
    | .filterColumnKeyTag => { value := b!"json" }
    | .filterColumnKeySeparator => { value := b!"." }
    | .methodName => { value := b!"Exec" }
  bool _ := { value := false }
  slice _ := { value := [] }
  argType := { name := b!"Conn", pkgPath := b!"github.com/frk/gosql", pkgName := b!"gosql" }
  converters := []

/-- An option of any type. -/
inductive Key where
  | str (k : StrOpt)
  | bool (k : BoolOpt)
  | slice (k : SliceOpt)
  | argType
  | converters
deriving Repr, DecidableEq

/-- `c.f = v`. -/
def upd {κ α : Type} [DecidableEq κ] (f : κ → α) (k : κ) (v : α) : κ → α := fun x => if x = k then v else f x

/-! ### Flags -/

/-- config.go:137-148: the option of a flag. -/
def flagKey : Bytes → Option Key
  | ['w', 'd'] => some (.str .workingDirectory)
  | ['r'] => some (.bool .recursive)
  | ['f'] => some (.slice .inputFiles)
  | ['r', 'x'] => some (.slice .inputFileRegexps)
  | ['o'] => some (.str .outputFileNameFormat)
  | ['d', 'b'] => some (.str .databaseDSN)
  | ['q', 'i', 'd'] => some (.bool .quoteIdentifiers)
  | ['f', 'c', 'k', 't', 'a', 'g'] => some (.str .filterColumnKeyTag)
  | ['f', 'c', 'k', 'b', 'a', 's', 'e'] => some (.bool .filterColumnKeyBase)
  | ['f', 'c', 'k', 's', 'e', 'p'] => some (.str .filterColumnKeySeparator)
  | ['w', 'i', 't', 'h', '-', 'c', 't', 'x'] => some (.bool .methodWithContext)
  | ['a', 'r', 'g', 't', 'y', 'p', 'e'] => some .argType
  | _ => none

/-- `c.F.Set(v)`. -/
def setKey (c : Config) (k : Key) (v : Bytes) : R Config :=
  match k with
  | .str k => .ok { c with str := upd c.str k (setString (c.str k) v) }
  | .bool k => (setBool (c.bool k) v).map fun o => { c with bool := upd c.bool k o }
  | .slice k => .ok { c with slice := upd c.slice k (setSlice (c.slice k) v) }
  | .argType => (setGoType c.argType v).map fun t => { c with argType := t }
  | .converters => .err .unknownFlag

/-- config.go:134-151 ParseFlags: the configuration and `ConfigFile`. -/
def parseFlags (c : Config) (file : Bytes) : List (Bytes × Bytes) → R (Config × Bytes)
  | [] => .ok (c, file)
  | (n, v) :: fs =>
    if n = b!"config" then parseFlags c v fs
    else
      match flagKey n with
      | none => .err .unknownFlag
      | some k => (setKey c k v).bind fun c => parseFlags c file fs

/-! ### The file -/

/-- The JSON keys: config.go:24-104. -/
def jsonKeys : List (Bytes × Key) :=
  [(b!"working_directory", .str .workingDirectory), (b!"recursive", .bool .recursive),
   (b!"input_files", .slice .inputFiles), (b!"input_file_regexps", .slice .inputFileRegexps),
   (b!"output_file_name_format", .str .outputFileNameFormat), (b!"database_dsn", .str .databaseDSN),
   (b!"quote_identifiers", .bool .quoteIdentifiers), (b!"filter_column_key_tag", .str .filterColumnKeyTag),
   (b!"filter_column_key_base", .bool .filterColumnKeyBase),
   (b!"filter_column_key_separator", .str .filterColumnKeySeparator), (b!"method_name", .str .methodName),
   (b!"method_with_context", .bool .methodWithContext), (b!"method_argument_type", .argType),
   (b!"filter_value_converters", .converters)]

/-- The option a JSON key stands for. -/
def jsonKey (n : Bytes) : Option Key := List.lookup (lower n) jsonKeys

/-- One key of an element of `filter_value_converters`. -/
def converterKey (c : Converter) (n : Bytes) (j : Json) : R Converter :=
  if lower n = b!"type" then (jsonObject c.type j).map fun o => { c with type := o }
  else if lower n = b!"func" then (jsonObject c.func j).map fun o => { c with func := o }
  else .ok c

def converterKeys (c : Converter) : List (Bytes × Json) → R Converter
  | [] => .ok c
  | (n, j) :: l => (converterKey c n j).bind fun c => converterKeys c l

def converter : Json → R Converter
  | .null => .ok {}
  | .obj l => converterKeys {} l
  | _ => .err .badJson

def converters : List Json → R (List Converter)
  | [] => .ok []
  | j :: js => (converter j).bind fun c => (converters js).map fun l => c :: l

/-- The value of a key is decoded into its option. -/
def jsonKeyValue (c : Config) (k : Key) (j : Json) : R Config :=
  match k with
  | .str k => (jsonString (c.str k) j).map fun o => { c with str := upd c.str k o }
  | .bool k => (jsonBool (c.bool k) j).map fun o => { c with bool := upd c.bool k o }
  | .slice k => (jsonSlice (c.slice k) j).map fun o => { c with slice := upd c.slice k o }
  | .argType => (jsonGoType c.argType j).map fun t => { c with argType := t }
  | .converters =>
    match j with
    | .null => .ok { c with converters := [] }
    | .arr l => (converters l).map fun l => { c with converters := l }
    | _ => .err .badJson

def decodeKeys (c : Config) : List (Bytes × Json) → R Config
  | [] => .ok c
  | (n, j) :: l =>
    match jsonKey n with
    | none => decodeKeys c l
    | some k => (jsonKeyValue c k j).bind fun c => decodeKeys c l

/-- config.go:193: json.Decoder.Decode. -/
def decode (c : Config) : Json → R Config
  | .null => .ok c
  | .obj l => decodeKeys c l
  | _ => .err .badJson

/-- An entry of a directory. -/
structure Entry where
  name : Bytes
  isDir : Bool
deriving Repr, DecidableEq

/-- config.go:322-330: the loop of examineDir. -/
def examine (isRoot : Bool) (conf : Bytes) : List Entry → Bool × Bytes
  | [] => (isRoot, conf)
  | e :: es =>
    examine (isRoot || (e.name = b!".git" && e.isDir))
      (if (e.name = b!".gosql" ∨ e.name = b!".gosql.json") ∧ e.isDir = false then e.name else conf) es

/-- config.go:310-339 examineDir, for the entries in the order in which they are listed. -/
def examineDir (es : List Entry) : Bool × Bytes :=
  let r := examine false [] es
  (r.1, if r.1 then r.2 else [])

/-- config.go:161-183: the directories are the working directory and its parents, without the root of the
file system; the result is the directory and name of the file. -/
def findFile : List (Bytes × List Entry) → Option (Bytes × Bytes)
  | [] => none
  | (d, es) :: ds =>
    let r := examineDir es
    if r.1 then (if r.2.length > 0 then some (d, r.2) else none) else findFile ds

/-! ### Validation -/

/-- strings.Contains. -/
def hasInfix (p : Bytes) : Bytes → Bool
  | [] => p.length = 0
  | c :: cs => p.isPrefixOf (c :: cs) || hasInfix p cs

/-- config.go:272-277: the output file name format. -/
def validFormat (f : Bytes) : R Bytes :=
  let n := f.count '%'
  if n = 0 then .ok (b!"%s" ++ f)
  else if n > 1 ∨ hasInfix b!"%s" f = false then .err .badFormat
  else .ok f

/-- config.go:280 `^(?:[A-Za-z_]\w*)?$`. -/
def rxKeyTag : Rx := Rx.opt Rx.ident

/-- The declaration of a type in a package; `named = none` for an alias. -/
structure TypeSpec where
  name : Bytes
  named : Option Typesutil.Named
deriving Repr, DecidableEq

/-- A package: its name and the types declared in it, in the order of the files. -/
structure Package where
  name : Bytes
  types : List TypeSpec
deriving Repr, DecidableEq

/-- packages.Load: `none` is an error. -/
abbrev Load := Bytes → Option (List Package)

/-- config.go:340-406 checkMethodArgumentType. -/
def checkArgType (ld : Load) (t : GoType) : R GoType :=
  match ld t.pkgPath with
  | none => .err .argLoad
  | some [] => .panic
  | some (p :: _) =>
    match p.types.find? (fun s => s.name = t.name) with
    | none => .err .argUnknown
    | some s =>
      match s.named with
      | none => .err .argKind
      | some n =>
        match Typesutil.implementsConn n with
        | .ok true => .ok { t with pkgName := p.name }
        | .ok false => .err .argMethods
        | _ => .panic

/-- config.go:289-293. -/
def validArgType (ld : Load) (t : GoType) : R GoType :=
  if t.text ≠ b!"github.com/frk/gosql.Conn" then checkArgType ld t else .ok t

/-- config.go:229-304 Validate, apart from the working directory, the database, and the input files and
regular expressions. -/
def validate (ld : Load) (c : Config) : R Config :=
  if (c.str .databaseDSN).value.length = 0 then .err .missingDsn
  else
    (validFormat (c.str .outputFileNameFormat).value).bind fun f =>
    if !rxKeyTag.matches (c.str .filterColumnKeyTag).value then .err .badKeyTag
    else if (c.str .filterColumnKeySeparator).value.length > 1 then .err .badSeparator
    else
      (validArgType ld c.argType).map fun t =>
        { c with
          str := upd c.str .outputFileNameFormat { c.str .outputFileNameFormat with value := f }
          argType := t }

/-- main.go:14-19 up to command.New: flags, then the file. -/
def load (flags : List (Bytes × Bytes)) (file : Option Json) : R Config :=
  (parseFlags defaultConfig [] flags).bind fun c =>
    match file with
    | none => .ok c.1
    | some j => decode c.1 j

end Verif.Config
