/-!
How the go command chooses the files of a package (go/build of Go 1.12, the version in go.mod: `shouldBuild`, `match`,
`goodOSArchFile`), and what it then needs to find in them.  The files of /repo are in `Model/GoBuildTable.lean`.
-/
namespace Model.GoBuild

/-- A file of a package: what the go command reads of it.  Identifiers and directories are numbers, named in the table. -/
structure File where
  name : String
  /-- the lines up to the first that is neither blank nor a comment -/
  head : List String
  /-- names declared at top level; methods as Type.Method -/
  defs : List Nat
  /-- functions declared without body -/
  bare : List Nat
  /-- symbols of an assembly file -/
  text : List Nat
  /-- packages of this module it imports (directories) -/
  imports : List Nat
  /-- names of this module declared in other files that it uses, with the directory -/
  uses : List (Nat × Nat)

/-- A directory with its files. -/
structure Pkg where
  dir : Nat
  files : List File

/-! ### text -/

/-- `unicode.IsSpace`; the files have no other spaces than these -/
def isSpace (c : Char) : Bool := c = ' ' || c = '\t' || c = '\r' || c = '\n'

/-- pieces between the characters for which `p` holds -/
def splitOn (p : Char → Bool) : List Char → List (List Char)
  | [] => [[]]
  | c :: l => if p c then [] :: splitOn p l else
    match splitOn p l with
    | [] => [[c]]
    | w :: ws => (c :: w) :: ws

/-- `strings.Fields` -/
def fields (l : List Char) : List (List Char) := (splitOn isSpace l).filter (fun w => !w.isEmpty)

/-- `bytes.TrimSpace` -/
def trim (l : List Char) : List Char := ((l.dropWhile isSpace).reverse.dropWhile isSpace).reverse

/-! ### build constraints -/

/-- What one name of a constraint asks for. -/
inductive Lit
  | never
  | always
  | tag (name : String)
  | not (name : String)
deriving DecidableEq, Repr

/-- Go: letters, digits, `_` and `.`; the model knows the ASCII ones -/
def tagChar (c : Char) : Bool := c.isAlphanum || c = '_' || c = '.'

/-- go/build `Context.match` on a name without comma: the empty name and `!!…` never match, `!` neither; a name with other characters
than those of a tag does not match (so its negation does) -/
def lit (w : List Char) : Lit :=
  match w with
  | [] => .never
  | '!' :: '!' :: _ => .never
  | ['!'] => .never
  | '!' :: r => if r.all tagChar then .not (String.ofList r) else .always
  | r => if r.all tagChar then .tag (String.ofList r) else .never

/-- go/build `Context.match`: all names between the commas must match -/
def token (w : List Char) : List Lit := (splitOn (· = ',') w).map lit

/-- The constraint of a line, if it is one: `// +build` followed by tokens of which one must match (`shouldBuild`, second pass). -/
def line (s : List Char) : Option (List (List Lit)) :=
  match trim s with
  | '/' :: '/' :: r =>
    match fields r with
    | w :: ws => if w = "+build".toList then some (ws.map token) else none
    | [] => none
  | _ => none

/-- `shouldBuild`, first pass: the lines before the last blank line of the leading run of comments and blank lines. -/
def leading (head : List String) : List (List Char) :=
  let run := (head.map String.toList).takeWhile fun s => match trim s with
    | [] => true
    | '/' :: '/' :: _ => true
    | _ => false
  (run.reverse.dropWhile fun s => !(trim s).isEmpty).reverse

/-- the architectures and systems known to go/build (syslist.go) -/
def knownArch : List String := ["386", "amd64", "amd64p32", "arm", "armbe", "arm64", "arm64be", "ppc64", "ppc64le", "mips", "mipsle", "mips64",
  "mips64le", "mips64p32", "mips64p32le", "ppc", "riscv", "riscv64", "s390", "s390x", "sparc", "sparc64", "wasm"]
@[inherit_doc knownArch]
def knownOS : List String := ["aix", "android", "darwin", "dragonfly", "freebsd", "hurd", "js", "linux", "nacl", "netbsd", "openbsd", "plan9",
  "solaris", "windows", "zos"]

/-- `goodOSArchFile`: the constraint in the name of the file -/
def ofName (name : String) : List (List (List Lit)) :=
  let base := (splitOn (· = '.') name.toList).headD []
  let parts := ((splitOn (· = '_') base).drop 1).map String.ofList
  let parts := if parts.getLast? = some "test" then parts.dropLast else parts
  match parts.reverse with
  | a :: o :: _ =>
    if knownOS.contains o && knownArch.contains a then [[[.tag a, .tag o]]]
    else if knownOS.contains a || knownArch.contains a then [[[.tag a]]] else []
  | [a] => if knownOS.contains a || knownArch.contains a then [[[.tag a]]] else []
  | [] => []

/-- All constraints of a file: every line must be satisfied by one of its tokens, of which all names must match. -/
def File.constraint (f : File) : List (List (List Lit)) := ofName f.name ++ (leading f.head).filterMap line

/-- The target: GOOS, GOARCH, the compiler (`gc` or `gccgo`), cgo, tags given with -tags, tags of the release (`go1.1`, …). -/
structure Ctx where
  goos : String
  goarch : String
  compiler : String
  cgo : Bool
  tags : List String
  release : List String

/-- go/build `Context.match`: the names that match -/
def Ctx.has (c : Ctx) (name : String) : Bool :=
  (c.cgo && name == "cgo") || name == c.goos || name == c.goarch || name == c.compiler || (c.goos == "android" && name == "linux") ||
    c.tags.contains name || c.release.contains name

def Lit.eval (v : String → Bool) : Lit → Bool
  | .never => false
  | .always => true
  | .tag n => v n
  | .not n => !v n

/-- `v` says which names match -/
def evalC (v : String → Bool) (k : List (List (List Lit))) : Bool := k.all fun l => l.any fun t => t.all (Lit.eval v)

/-- The files of a package in a build. -/
def Pkg.chosen (v : String → Bool) (p : Pkg) : List File := p.files.filter fun f => evalC v f.constraint

/-! ### what the compiler and the linker need -/

/-- What is wrong with a package. -/
inductive Err
  /-- a file uses a name that no chosen file declares -/
  | undefined (file : String) (dir name : Nat)
  /-- a name is declared more than once -/
  | twice (name : Nat)
  /-- a function is declared without body, and the assembly has none or more than one -/
  | body (name : Nat)
  /-- the assembly has a function that is not declared -/
  | undeclared (name : Nat)
deriving DecidableEq, Repr

/-- how often a name occurs -/
def times (x : Nat) (l : List Nat) : Nat := (l.filter (· == x)).length

/-- the names declared by the chosen files -/
def Pkg.names (v : String → Bool) (p : Pkg) : List Nat := (p.chosen v).flatMap fun f => f.defs ++ f.bare

/-- Names that are missing or declared twice.  `init` may be declared any number of times. -/
def Pkg.errors (v : String → Bool) (repo : List Pkg) (init : Nat) (p : Pkg) : List Err :=
  let fs := p.chosen v
  let names := p.names v
  let text := fs.flatMap File.text
  (fs.flatMap fun f => (f.uses.filter fun u => !((repo.filter fun q => q.dir == u.1).any fun q => (q.names v).contains u.2)).map fun u => .undefined f.name u.1 u.2) ++
    ((names.filter fun x => x != init && times x names != 1).map .twice) ++
    (((fs.flatMap File.bare).filter fun x => times x text != 1).map .body) ++
    ((text.filter fun x => !(fs.flatMap File.bare).contains x).map .undeclared)

/-- The package has a file in the build, no name of it is missing or declared twice, and so for all packages it imports. -/
inductive Builds (v : String → Bool) (repo : List Pkg) (init : Nat) : Nat → Prop
  | mk {p : Pkg} : p ∈ repo → p.chosen v ≠ [] → p.errors v repo init = [] → (∀ f ∈ p.chosen v, ∀ d ∈ f.imports, Builds v repo init d) → Builds v repo init p.dir

/-- The files of the build in which a function has its code: the Go files declaring it with a body, the assembly files with its symbol. -/
def Pkg.code (v : String → Bool) (p : Pkg) (name : Nat) : List String :=
  ((p.chosen v).filter fun f => f.defs.contains name || f.text.contains name).map File.name

end Model.GoBuild
