import Verif.Config.Model

/- internal/command/command.go, internal/search/search.go: from the packages found to the files written.

The loader of packages, the analysis, the type checker, the generator and the formatter are parameters: the
order in which they are called, what happens to their errors, and what is done to the file system is
modelled. -/
namespace Verif.Command
open Verif.Analysis Verif.Config

/-! ### Output file names -/

/-- strings.HasSuffix. -/
def hasSuffix (s suf : Bytes) : Bool := suf.isSuffixOf s

/-- strings.TrimSuffix. -/
def trimSuffix (s suf : Bytes) : Bytes := if hasSuffix s suf then s.take (s.length - suf.length) else s

/-- fmt.Sprintf for a format with the single verb `%s`: config.go:272-277 refuses any other. -/
def sprintf : Bytes → Bytes → Bytes
  | '%' :: 's' :: cs, arg => arg ++ cs
  | c :: cs, arg => c :: sprintf cs arg
  | [], _ => []

/-- command.go:113-117: the name of the output file. -/
def outName (fmt base : Bytes) : Bytes :=
  let name := sprintf fmt (trimSuffix base b!".go")
  if hasSuffix name b!".go" then name else name ++ b!".go"

/-- An absolute path: the names from the root down. -/
abbrev Path := List Bytes

/-- strings.Split at a character. -/
def splitAt (c : Char) : Bytes → List Bytes
  | [] => [[]]
  | d :: ds =>
    if d = c then [] :: splitAt c ds
    else
      match splitAt c ds with
      | [] => [[d]]
      | w :: ws => (d :: w) :: ws

/-- One element of a path in filepath.Clean, for a rooted path. -/
def cleanStep (p : Path) (s : Bytes) : Path :=
  if s.length = 0 ∨ s = b!"." then p else if s = b!".." then p.dropLast else p ++ [s]

/-- filepath.Join(dir, name) for a rooted, clean `dir`. -/
def join (dir : Path) (name : Bytes) : Path := (splitAt '/' name).foldl cleanStep dir

/-- command.go:110-120 outFilePath, for the path `dir/base`. -/
def outFilePath (fmt : Bytes) (dir : Path) (base : Bytes) : Path := join dir (outName fmt base)

/-! ### Search -/

/-- An *ast.TypeSpec: `doc` are the comments of its documentation; `named` is the *types.Named of the
definition, if it has one. -/
structure TypeSpec (μ : Type) where
  name : Bytes
  doc : List Bytes := []
  named : Option μ

/-- A declaration of a file; `isType` if it is an *ast.GenDecl with the token TYPE. -/
structure Decl (μ : Type) where
  isType : Bool := true
  doc : List Bytes := []
  specs : List (TypeSpec μ)

/-- What packages.Load gives for a package. -/
structure Loaded (μ : Type) where
  name : Bytes
  files : List (Path × Bytes)
  syntaxes : List (List (Decl μ))

/-- search.go:43-47. -/
structure File (μ : Type) where
  dir : Path
  base : Bytes
  hits : List μ

/-- search.go:50-56. -/
structure Package (μ : Type) where
  name : Bytes
  files : List (File μ)

/-- The characters that RE2 takes to be equal to a lower case letter of the five words when case is ignored. -/
def foldEq (p c : Char) : Bool := c.toLower == p || (p == 's' && c == 'ſ')

def foldPrefix : Bytes → Bytes → Bool
  | [], _ => true
  | _ :: _, [] => false
  | p :: ps, c :: cs => foldEq p c && foldPrefix ps cs

/-- search.go:31 `^(?i:Select|Insert|Update|Delete|Filter)`. -/
def isTarget (name : Bytes) : Bool :=
  [b!"select", b!"insert", b!"update", b!"delete", b!"filter"].any fun p => foldPrefix p name

/-- search.go:150-159 hasIgnoreDirective. -/
def ignored (doc : List Bytes) : Bool := doc.any fun c => hasInfix b!"gosql:ignore" c

/-- search.go:108-131: the specs of a declaration. -/
def specHits {μ : Type} : List (TypeSpec μ) → List μ
  | [] => []
  | s :: ss =>
    if !isTarget s.name || ignored s.doc then specHits ss
    else
      match s.named with
      | none => specHits ss
      | some m => m :: specHits ss

/-- search.go:102-132: the declarations of a file. -/
def declHits {μ : Type} : List (Decl μ) → List μ
  | [] => []
  | d :: ds => if !d.isType || ignored d.doc then declHits ds else specHits d.specs ++ declHits ds

/-- search.go:93-138: the file of each syntax tree is the one with the same index. -/
def searchFiles {μ ε : Type} (filter : Path → Bytes → Bool) :
    List (List (Decl μ)) → List (Path × Bytes) → Res ε (List (File μ))
  | [], _ => .ok []
  | _ :: _, [] => .panic
  | s :: ss, (dir, base) :: fs =>
    (searchFiles filter ss fs).map fun l =>
      if !filter dir base then l
      else if (declHits s).length > 0 then ⟨dir, base, declHits s⟩ :: l else l

/-- search.go:86-144: the packages. -/
def searchPkgs {μ ε : Type} (filter : Path → Bytes → Bool) : List (Loaded μ) → Res ε (List (Package μ))
  | [] => .ok []
  | p :: ps =>
    (searchFiles filter p.syntaxes p.files).bind fun fs =>
    (searchPkgs filter ps).map fun l => if fs.length > 0 then ⟨p.name, fs⟩ :: l else l

/-- config.go:200-226 FileFilterFunc; nil, which passes every file (search.go:66-68), if nothing was given. -/
def fileFilter (inputs : List (Path × Bytes)) (regexps : List (Path → Bytes → Bool)) (dir : Path) (base : Bytes) :
    Bool :=
  if inputs.length = 0 ∧ regexps.length = 0 then true
  else inputs.any (fun p => p = (dir, base)) || regexps.any (fun r => r dir base)

/-! ### Run -/

/-- The parts of the program that Run calls: `μ` is a type that was found, `α` the result of its analysis,
`τ` that of the type checker. -/
structure Steps (ε μ α τ : Type) where
  openDb : Res ε Unit
  load : Res ε (List (Loaded μ))
  filter : Path → Bytes → Bool
  converters : Res ε Unit
  analyze : μ → Res ε α
  check : α → Res ε τ
  generate : Bytes → List τ → Res ε Bytes
  format : Bytes → Res ε Bytes
  fmt : Bytes

/-- command.go:122-129. -/
structure OutFile where
  path : Path
  code : Bytes
deriving Repr, DecidableEq

section
variable {ε μ α τ : Type} (S : Steps ε μ α τ)

/-- command.go:72-86: the targets of a file. -/
def targets : List μ → Res ε (List τ)
  | [] => .ok []
  | m :: ms =>
    (S.analyze m).bind fun a => (S.check a).bind fun t => (targets ms).map fun l => t :: l

/-- command.go:67-94: the files of a package. -/
def planFiles (pkg : Bytes) : List (File μ) → Res ε (List OutFile)
  | [] => .ok []
  | f :: fs =>
    (targets S f.hits).bind fun ts =>
    (S.generate pkg ts).bind fun code =>
    (planFiles pkg fs).map fun l => ⟨outFilePath S.fmt f.dir f.base, code⟩ :: l

/-- command.go:64-96. -/
def planPkgs : List (Package μ) → Res ε (List OutFile)
  | [] => .ok []
  | p :: ps => (planFiles S p.name p.files).bind fun l => (planPkgs ps).map fun r => l ++ r

/-- command.go:46-96: everything before the first file is written. -/
def plan : Res ε (List OutFile) :=
  S.openDb.bind fun _ =>
  S.load.bind fun ps =>
  (searchPkgs S.filter ps).bind fun pkgs =>
  S.converters.bind fun _ =>
  planPkgs S pkgs
end

/-- The files: what each contains, if it exists. -/
abbrev Disk := Path → Option Bytes

def Disk.set (d : Disk) (p : Path) (c : Option Bytes) : Disk := fun q => if q = p then c else d q

/-- What can go wrong when a file is written: os.Create fails; the copy stops after some bytes; the sync fails;
the removal fails. -/
structure Faults (ε : Type) where
  create : Path → Option ε
  copy : Path → Option (Nat × ε)
  sync : Path → Option ε
  remove : Path → Bool

/-- command.go:136-141: the deferred function, after an error. -/
def cleanup {ε : Type} (F : Faults ε) (d : Disk) (p : Path) : Disk := if F.remove p then d else d.set p none

/-- command.go:131-155 writeOutFile. -/
def writeOutFile {ε : Type} (F : Faults ε) (format : Bytes → Res ε Bytes) (d : Disk) (o : OutFile) :
    Disk × Res ε Unit :=
  match F.create o.path with
  | some e => (d, .err e)
  | none =>
    let d := d.set o.path (some [])
    match format o.code with
    | .err e => (cleanup F d o.path, .err e)
    | .panic => (d, .panic)
    | .ok bs =>
      match F.copy o.path with
      | some (n, e) => (cleanup F (d.set o.path (some (bs.take n))) o.path, .err e)
      | none =>
        let d := d.set o.path (some bs)
        match F.sync o.path with
        | some e => (cleanup F d o.path, .err e)
        | none => (d, .ok ())

/-- command.go:99-105. -/
def writeAll {ε : Type} (F : Faults ε) (format : Bytes → Res ε Bytes) (d : Disk) :
    List OutFile → Disk × Res ε Unit
  | [] => (d, .ok ())
  | o :: os =>
    match writeOutFile F format d o with
    | (d, .ok ()) => writeAll F format d os
    | (d, r) => (d, r)

/-- command.go:46-108 Run. -/
def run {ε μ α τ : Type} (S : Steps ε μ α τ) (F : Faults ε) (d : Disk) : Disk × Res ε Unit :=
  match plan S with
  | .ok os => writeAll F S.format d os
  | .err e => (d, .err e)
  | .panic => (d, .panic)

end Verif.Command
