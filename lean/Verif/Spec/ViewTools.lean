import Verif.Model.ViewTools

/-! The input that the command line tools of the view engine are given: how arguments are written.  Used by the
property theorems. -/

namespace Couchstore.ViewTools

/-- A number in decimal. -/
def decimal (n : Nat) : Bytes :=
  if n < 10 then [UInt8.ofNat (48 + n)] else decimal (n / 10) ++ [UInt8.ofNat (48 + n % 10)]

/-- A line. -/
def line (l : Bytes) : Bytes := l ++ [10]

/-- A line with a number. -/
def num (n : Nat) : Bytes := line (decimal n)

/-- A line that can be read into a buffer: it is short enough, and it has no zero byte and no newline in it. -/
structure LineOk (size : Nat) (l : Bytes) : Prop where
  noZero : 0 ∉ l
  noNewline : 10 ∉ l
  short : l.length + 2 ≤ size

/-- A view: a line with its name, the length of the reduce function, and the reduce function (which may have
newlines). -/
def viewText (v : ViewDef) : Bytes := line v.name ++ (num v.reducer.length ++ v.reducer)

structure ViewOk (v : ViewDef) : Prop where
  name : LineOk 4096 v.name
  reducer : 0 ∉ v.reducer
  some : v.reducer ≠ []
  short : v.reducer.length < 2 ^ 31 - 1

/-- The views of one b-tree. -/
def btreeText (l : List ViewDef) : Bytes := num l.length ++ l.flatMap viewText

/-- A spatial view. -/
def spatialText (s : SpatialDef) : Bytes := num s.dimension ++ s.mbb

/-- The description of a group. -/
def groupText (g : GroupInfo) : Bytes :=
  match g.views with
  | .mapreduce l => num 0 ++ (line g.filepath ++ (num g.headerPos ++ (num l.length ++ l.flatMap btreeText)))
  | .spatial l => num 1 ++ (line g.filepath ++ (num g.headerPos ++ (num l.length ++ l.flatMap spatialText)))

/-- What is asked of a group. -/
structure GroupOk (g : GroupInfo) : Prop where
  path : LineOk 4096 g.filepath
  pos : g.headerPos < 2 ^ 64
  few : g.numBtrees + 1 < 2 ^ 31
  views : match g.views with
    | .mapreduce l => ∀ b ∈ l, b.length < 2 ^ 31 ∧ ∀ v ∈ b, ViewOk v
    | .spatial l => ∀ s ∈ l, s.dimension < 2 ^ 16 ∧ s.mbb.length = 16 * s.dimension

/-- The input of the program that builds an index. -/
def builderText (a : BuilderArgs) : Bytes :=
  groupText a.group ++ (line a.tmpDir ++ (line a.dest ++ a.sources.flatMap line))

structure BuilderOk (a : BuilderArgs) : Prop where
  group : GroupOk a.group
  tmpDir : LineOk 8192 a.tmpDir
  dest : LineOk 8192 a.dest
  sources : ∀ l ∈ a.sources, LineOk 8192 l
  count : a.sources.length = a.group.numBtrees + 1

/-- The input of the program that updates an index; `s` stands for sorted files, `u` for unsorted ones. -/
def updaterText (a : UpdaterArgs) : Bytes :=
  line a.tmpDir ++ (groupText a.group ++ (line (if a.sorted then [115] else [117]) ++ (a.sources.flatMap line ++
    (num a.batchSize.toNat ++ (num a.header.length ++ a.header)))))

structure UpdaterOk (a : UpdaterArgs) : Prop where
  tmpDir : LineOk 8192 a.tmpDir
  group : GroupOk a.group
  sources : ∀ l ∈ a.sources, LineOk 8192 l
  count : a.sources.length = a.group.numBtrees + 1
  batch : 0 ≤ a.batchSize ∧ a.batchSize < 2 ^ 31
  header : a.header ≠ [] ∧ a.header.length < 2 ^ 63

/-- The input of the program that compacts an index. -/
def compactorText (a : CompactorArgs) : Bytes :=
  line a.target ++ (num a.totalChanges ++ (groupText a.group ++ (num a.header.length ++ a.header)))

structure CompactorOk (a : CompactorArgs) : Prop where
  target : LineOk 8192 a.target
  total : a.totalChanges < 2 ^ 64
  group : GroupOk a.group
  header : a.header ≠ [] ∧ a.header.length ≤ 20 * 1024 * 1024

/-- The input of the program that merges files: the type (`i`, `v`, or `s` with a temporary directory), the
number of files, the files, the destination. -/
def mergerText (a : MergerArgs) : Bytes :=
  line [a.type] ++ ((if a.type = 115 then line a.tmpDir else []) ++
    (num a.sources.length ++ (a.sources.flatMap line ++ line a.dest)))

/-- A line that does not begin with white space. -/
def NoBlank (l : Bytes) : Prop := ∃ b r, l = b :: r ∧ b ∉ ([9, 10, 11, 12, 13, 32] : Bytes)

structure MergerOk (a : MergerArgs) : Prop where
  type : a.type = 105 ∨ a.type = 118 ∨ a.type = 115
  tmpDir : if a.type = 115 then LineOk 8192 a.tmpDir ∧ NoBlank a.tmpDir else a.tmpDir = []
  sources : ∀ l ∈ a.sources, LineOk 8192 l
  first : ∃ l r, a.sources = l :: r ∧ NoBlank l
  few : a.sources.length < 2 ^ 31
  dest : LineOk 8192 a.dest

end Couchstore.ViewTools
