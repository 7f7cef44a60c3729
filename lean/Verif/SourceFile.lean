/-
Model of `src/sourcefile.c` (source files, lists of source files, directory
traversal) and of `ohcount_parse` in `src/parser.c`.

Language detection, the line parsers, license detection and the disk are
parameters here (`Env`): the theorems about call histories hold for all of
them.  The detector, the parsers and the license detection are modelled in
their own modules.
-/
import Verif.ParsedLanguage

namespace Ohcount

/-- A path or any other byte string without its terminating NUL. -/
abbrev Bytes := List Byte

def chDot : Byte := 46
def chSlash : Byte := 47
def chBackslash : Byte := 92

/-! ### Path splitting -/

/-- `while (p > filepath && *(p-1) != '.' && *(p-1) != '/' && *(p-1) != '\\') p--`,
src/sourcefile.c:31-32, for the given set of stop bytes; `p` is the offset. -/
def scanBack (stop : Byte → Bool) (path : Bytes) : Nat → Nat
  | 0 => 0
  | p + 1 =>
    match path[p]? with
    | some b => if stop b then p + 1 else scanBack stop path p
    | none => scanBack stop path p        -- not reached: `p` starts at the length

def isSep (b : Byte) : Bool := b == chSlash || b == chBackslash
def isSepOrDot (b : Byte) : Bool := b == chDot || isSep b

/-- Result of splitting a path: `ext` and `filename` are pointers into `filepath`,
kept as offsets, and `dirpath` is a length. -/
structure PathParts where
  ext : Nat
  filename : Nat
  dirpath : Nat
  deriving DecidableEq, Repr

/-- `ohcount_sourcefile_new`, src/sourcefile.c:22-39.  When the first loop ends at the
start of the string, line 33 reads `*(p - 1)`, the byte *before* the allocation:
`before` is the value that read happens to return (formally it is undefined
behaviour; see `readsBefore`). -/
def splitPath (before : Byte) (path : Bytes) : PathParts :=
  let len := path.length
  let p := scanBack isSepOrDot path len
  let prev : Byte := if p = 0 then before else (path[p - 1]?).getD 0
  let ext := if prev = chDot then p else len
  let p' := scanBack isSep path p
  { ext, filename := p', dirpath := p' - 1 }       -- clamped at 0, lines 38-39

/-- Line 33 reads outside the allocation. -/
def readsBefore (path : Bytes) : Bool := scanBack isSepOrDot path path.length == 0

/-! ### Source files -/

/-- `SourceFile`, src/structs.h:238-309, without `filenames` (written only by callers
in `ohcount.c` and the Ruby binding).  `detections` and `parses` are ghost
counters: how often detection ran and how often the line parser ran for
`parsed_language_list`. -/
structure SourceFile where
  filepath : Bytes
  parts : PathParts
  diskpath : Option Bytes := none
  contents : Option Bytes := none
  size : Int := -1
  language : Option String := none
  languageDetected : Bool := false
  parsed : Option (List ParsedLanguage) := none
  licenses : Option (List String) := none
  locList : Option LocList := none
  detections : Nat := 0
  parses : Nat := 0
  deriving Repr

/-- `ohcount_sourcefile_new`, src/sourcefile.c:22-59. -/
def SourceFile.new (before : Byte) (path : Bytes) : SourceFile :=
  { filepath := path, parts := splitPath before path }

/-- The readable files: path to content. -/
abbrev Disk := Bytes → Option Bytes

/-- Everything a source file depends on besides its own state. -/
structure Env where
  /-- `ohcount_detect_language`: the language, and whether it called
  `ohcount_sourcefile_get_contents` on the file. -/
  detect : SourceFile → Disk → Option String × Bool
  /-- `ohcount_hash_language_from_name(name)->name` -/
  knownName : String → Option String
  /-- `ohcount_hash_parser_from_language(language) != NULL` -/
  hasParser : String → Bool
  /-- the reports of the language's parser in counting mode for a buffer (`none` for
  a null pointer) and its length -/
  parse : String → Option Bytes → Int → List Report
  /-- `ohcount_detect_license` as a function of the parsed languages -/
  detectLicenses : List ParsedLanguage → List String
  /-- content of fresh memory -/
  junk : Byte

/-- State of the system: the source file and the disk. -/
structure World where
  sf : SourceFile
  disk : Disk

namespace SourceFile

/-- `ohcount_sourcefile_get_contents`, src/sourcefile.c:82-108.  An empty file makes
`fread(contents, 0, 1, f)` return 0, so it takes the failure branch. -/
def loadContents (disk : Disk) (s : SourceFile) : SourceFile :=
  match s.contents with
  | some _ => s
  | none =>
    let path := s.diskpath.getD s.filepath
    match disk path with
    | some (b :: bs) => { s with contents := some (b :: bs), size := (b :: bs).length }
    | some [] => { s with contents := none, size := 0 }
    | none => { s with contents := none, size := 0 }

/-- `ohcount_sourcefile_set_contents`, src/sourcefile.c:71-80.  The argument is a C
string: everything from its first NUL on is not seen (`strlen`). -/
def setContents (s : SourceFile) (c : Bytes) : SourceFile :=
  let c' := c.takeWhile (fun b => b != 0)
  { s with contents := some c', size := c'.length }

/-- `ohcount_sourcefile_get_contents_size`, src/sourcefile.c:110-114. -/
def sizeOf (disk : Disk) (s : SourceFile) : SourceFile :=
  if s.size < 0 then loadContents disk s else s

/-- `ohcount_sourcefile_set_language`, src/sourcefile.c:116-124. -/
def setLanguage (env : Env) (s : SourceFile) (name : String) : SourceFile :=
  match env.knownName name with
  | some n => { s with language := some n, languageDetected := true }
  | none => s

/-- `ohcount_sourcefile_get_language`, src/sourcefile.c:126-132. -/
def detectLanguage (env : Env) (disk : Disk) (s : SourceFile) : SourceFile :=
  if s.languageDetected then s
  else
    let (lang, looked) := env.detect s disk
    let s' := if looked then loadContents disk s else s
    { s' with language := lang, languageDetected := true, detections := s'.detections + 1 }

/-- `ohcount_parse`, src/parser.c:12-30, up to the call of the parser: the state
afterwards and the reports the callback receives.  (`count` = 1.) -/
def runParser (env : Env) (disk : Disk) (s : SourceFile) : SourceFile × List Report :=
  let s1 := detectLanguage env disk s
  match s1.language with
  | none => (s1, [])
  | some lang =>
    if env.hasParser lang then
      let s2 := sizeOf disk (loadContents disk s1)
      (s2, env.parse lang s2.contents s2.size)
    else (s1, [])

/-- `ohcount_sourcefile_parse`, src/sourcefile.c:192-205.  `none`: undefined
behaviour in the callback.  When the buffer is a null pointer its length is 0 and
`recordAll` works on the empty text. -/
def doParse (env : Env) (disk : Disk) (s : SourceFile) : Option SourceFile :=
  match s.parsed with
  | some _ => some s
  | none =>
    let (s1, reports) := runParser env disk s
    (recordAll env.junk (s1.contents.getD []) [] reports).bind fun pls =>
      some { s1 with parsed := some pls, contents := none, parses := s1.parses + 1 }

/-- `ohcount_sourcefile_get_loc_list`, src/sourcefile.c:236-253. -/
def computeLoc (env : Env) (disk : Disk) (s : SourceFile) : Option SourceFile :=
  match s.locList with
  | some _ => some s
  | none => (doParse env disk s).bind fun s1 =>
      some { s1 with locList := some (locListOf (s1.parsed.getD [])) }

/-- `ohcount_sourcefile_get_license_list`, src/sourcefile.c:230-234;
`ohcount_detect_license` starts by getting the parsed languages
(src/licenses.c:777). -/
def computeLicenses (env : Env) (disk : Disk) (s : SourceFile) : Option SourceFile :=
  match s.licenses with
  | some _ => some s
  | none => (doParse env disk s).bind fun s1 =>
      some { s1 with licenses := some (env.detectLicenses (s1.parsed.getD [])) }

end SourceFile

/-- The API calls on a source file, and changes of the disk by others. -/
inductive Op where
  | setDiskpath (p : Bytes)
  | setContents (c : Bytes)
  | getContents
  | getSize
  | setLanguage (name : String)
  | getLanguage
  | parse
  | getParsed
  /-- `ohcount_sourcefile_parse_with_callback` -/
  | parseWithCallback
  | getLicenses
  | getLoc
  | diskChange (d : Disk)

/-- What a call returns. -/
inductive Res where
  | unit
  | contents (c : Option Bytes)
  | size (n : Int)
  | language (l : Option String)
  | parsed (pls : List ParsedLanguage)
  | reports (rs : List Report)
  | licenses (l : List String)
  | loc (l : LocList)
  deriving DecidableEq

/-- One call. -/
def step (env : Env) (w : World) : Op → Option (World × Res)
  | .setDiskpath p =>                                        -- src/sourcefile.c:61-69
    some (⟨{ w.sf with diskpath := some p }, w.disk⟩, .unit)
  | .setContents c => some (⟨w.sf.setContents c, w.disk⟩, .unit)
  | .getContents =>
    let s := w.sf.loadContents w.disk
    some (⟨s, w.disk⟩, .contents s.contents)
  | .getSize =>
    let s := w.sf.sizeOf w.disk
    some (⟨s, w.disk⟩, .size s.size)
  | .setLanguage n => some (⟨w.sf.setLanguage env n, w.disk⟩, .unit)
  | .getLanguage =>
    let s := w.sf.detectLanguage env w.disk
    some (⟨s, w.disk⟩, .language s.language)
  | .parse => (w.sf.doParse env w.disk).bind fun s => some (⟨s, w.disk⟩, .unit)
  | .getParsed =>                                            -- src/sourcefile.c:207-211
    (w.sf.doParse env w.disk).bind fun s => some (⟨s, w.disk⟩, .parsed (s.parsed.getD []))
  | .parseWithCallback =>                                    -- src/sourcefile.c:213-219
    let (s, rs) := w.sf.runParser env w.disk
    some (⟨s, w.disk⟩, .reports rs)
  | .getLicenses =>
    (w.sf.computeLicenses env w.disk).bind fun s =>
      some (⟨s, w.disk⟩, .licenses (s.licenses.getD []))
  | .getLoc =>
    (w.sf.computeLoc env w.disk).bind fun s => some (⟨s, w.disk⟩, .loc (s.locList.getD []))
  | .diskChange d => some (⟨w.sf, d⟩, .unit)

/-- A history of calls: final state and all results. -/
def run (env : Env) : World → List Op → Option (World × List Res)
  | w, [] => some (w, [])
  | w, op :: ops =>
    (step env w op).bind fun (w1, r) =>
      (run env w1 ops).bind fun (w2, rs) => some (w2, r :: rs)

/-! ### Lists of source files -/

/-- What `lstat` says about a directory entry, and, for directories, what `opendir` and
`readdir` return (the entries in `readdir` order, `.` and `..` included or not). -/
inductive Node where
  | reg
  | link
  | other
  | dir (readable : Bool) (entries : List (Bytes × Node))

/-- `directory + '/' + d_name`, src/sourcefile.c:372-375, 383-385.  Simplification: the
buffer `filepath[FILENAME_MAX]` is assumed to be large enough. -/
def joinPath (directory name : Bytes) : Bytes := directory ++ chSlash :: name

/-- `*file->d_name == '.'`, src/sourcefile.c:391. -/
def hiddenName : Bytes → Bool
  | b :: _ => b == chDot
  | [] => false

mutual
/-- `ohcount_sourcefile_list_add_directory`, src/sourcefile.c:370-398: the paths it adds
to the list, in order. -/
def addDirectory (directory : Bytes) : Node → List Bytes
  | .dir true entries => addEntries directory entries
  | _ => []                                            -- opendir failed
/-- The `readdir` loop, src/sourcefile.c:381-395. -/
def addEntries (directory : Bytes) : List (Bytes × Node) → List Bytes
  | [] => []
  | (name, node) :: rest =>
    let here :=
      match node with
      | .link => []
      | .dir r es => if hiddenName name then [] else addDirectory (joinPath directory name) (.dir r es)
      | .reg => [joinPath directory name]
      | .other => []
    here ++ addEntries directory rest
end

/-- `ohcount_sourcefile_list_add_file`, src/sourcefile.c:355-368. -/
def listAddFile (before : Byte) (l : List SourceFile) (path : Bytes) : List SourceFile :=
  l ++ [SourceFile.new before path]

/-- `ohcount_sourcefile_list_add_directory` on a list. -/
def listAddDirectory (before : Byte) (l : List SourceFile) (directory : Bytes) (n : Node) :
    List SourceFile :=
  (addDirectory directory n).foldl (listAddFile before) l

/-- `ohcount_sourcefile_list_analyze_languages`, src/sourcefile.c:400-409.  The files
share the disk; each one keeps its own state. -/
def analyzeLoop (env : Env) (disk : Disk) : LocList → List SourceFile → Option LocList
  | acc, [] => some acc
  | acc, s :: rest =>
    (s.computeLoc env disk).bind fun s1 =>
      analyzeLoop env disk (acc.addLocList (s1.locList.getD [])) rest

def analyzeLanguages (env : Env) (disk : Disk) (files : List SourceFile) : Option LocList :=
  analyzeLoop env disk [] files

end Ohcount
