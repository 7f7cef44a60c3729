import Verif.MemSort
import Verif.MemFile
import Verif.Cli

/-!
`main` of src/ohcount.c in memory: what a run of the program prints, and the blocks that are in use when it ends (C79, C80).
-/

namespace Ohcount.Mem
open Ohcount.Cli

/-- A callback of a parser in entity mode: language, entity, start and end. -/
structure Entity where
  lang : String
  name : String
  s : Int
  e : Int
  deriving DecidableEq

/-- What is printed. -/
inductive Out where
  /-- `Bad argument`, src/ohcount.c:279 -/
  | bad (path : Bytes)
  /-- the text of `help`, src/ohcount.c:68-124 -/
  | help
  /-- `Examining %i file(s)` and the headings, src/ohcount.c:152-157 and 209-217 -/
  | examining (n : Nat)
  /-- a row of `individual`, src/ohcount.c:163-176 -/
  | fileRow (r : Row) (path : Bytes)
  /-- a row of `summary`, src/ohcount.c:220-232 -/
  | row (r : Row)
  /-- the last row of `summary`, src/ohcount.c:239-248 -/
  | totals (r : Row)
  /-- a line of `detect`, src/ohcount.c:34-35; `none` is a null pointer for `%s` -/
  | detected (lang : Option String) (path : Bytes)
  /-- a line of `licenses`, src/ohcount.c:45-46; `more` is whether there is a comma after the name -/
  | license (name : String) (more : Bool) (file : Bytes)
  /-- a line of `raw_entities`, src/ohcount.c:55 -/
  | entity (e : Entity)
  /-- what `annotate_callback` prints, src/ohcount.c:19 -/
  | line (lang : String) (kind : Ohcount.Kind) (text : Bytes)
  deriving DecidableEq

/-! ### The code -/

section
variable (env : Env) (raw : String → Option Bytes → Int → List Entity) (al : Alloc) (disk : Disk)

/-- The loop over the files of `annotate`, `detect`, `licenses`, `raw_entities` and `individual`, src/ohcount.c:23-28, 32-37, 41-50, 59-65,
158-180. -/
def forFiles (body : Ptr → M (List Out)) (iter : Ptr) : M (List Out) := do
  if iter = 0 then pure [] else
    let it ← getNode iter
    let a ← body it.item
    let it ← getNode iter
    let b ← forFiles body it.next
    pure (a ++ b)
partial_fixpoint

/-- The loops that count the files, src/ohcount.c:146-151 and 203-208. -/
def countFrom (n : Nat) (iter : Ptr) : M Nat := do
  if iter = 0 then pure n else
    let it ← getNode iter
    countFrom (n + 1) it.next
partial_fixpoint

/-- `printf("%s", sf->filepath)` -/
def pathOf (sf : Ptr) : M Bytes := do
  let f ← getFile sf
  getText f.filepath

/-- Lines 34-35 of src/ohcount.c. -/
def detectOne (sf : Ptr) : M (List Out) := do
  let l ← fileLanguage env al disk sf
  let path ← pathOf sf
  pure [.detected l path]

/-- `sf->filename`, which points into `sf->filepath`. -/
def nameOf (sf : Ptr) : M Bytes := do
  let f ← getFile sf
  let path ← getText f.filepath
  pure (path.drop f.parts.filename)

/-- The inner loop of `licenses`, src/ohcount.c:44-48. -/
def licensesFrom (sf iter : Ptr) : M (List Out) := do
  if iter = 0 then pure [] else
    let it ← getNode iter
    let name ← nameOf sf
    let rest ← licensesFrom sf it.next
    pure (.license it.lic (decide (it.next ≠ 0)) name :: rest)
partial_fixpoint

/-- Lines 43-48 of src/ohcount.c. -/
def licensesOne (sf : Ptr) : M (List Out) := do
  let p ← fileLicenses env al disk sf
  let l ← getNode p
  licensesFrom sf l.head

/-- `ohcount_parse` in entity mode, src/parser.c:12-30; see `parserRun`. -/
def entityCall (sf : Ptr) (lang : String) : M (List Entity) := do
  let buffer ← fileContents al disk sf
  let size ← fileSize al disk sf
  let text ← getTextOpt buffer
  pure (raw lang text size)

def entityRun (sf : Ptr) : M (List Entity) := do
  let lang ← fileLanguage env al disk sf
  match lang with
  | none => pure []
  | some lang => if env.hasParser lang then entityCall raw al disk sf lang else pure []

/-- Lines 61-63 of src/ohcount.c. -/
def rawOne (sf : Ptr) : M (List Out) := do
  let es ← entityRun env raw al disk sf
  pure (es.map .entity)

/-- `annotate_callback`, src/ohcount.c:12-20.  `buf` is not a block of the heap. -/
def annotateLine (sf : Ptr) (r : Report) : M Out := do
  let f ← getFile sf
  let c ← getTextOpt f.contents
  match annotateCallback env.junk (c.getD []) r with
  | some t => pure (.line r.lang r.kind t)
  | none => undefined

def annotateAll (sf : Ptr) : List Report → M (List Out)
  | [] => pure []
  | r :: rs => do
    let o ← annotateLine env sf r
    let os ← annotateAll sf rs
    pure (o :: os)

/-- Lines 25-26 of src/ohcount.c. -/
def annotateOne (sf : Ptr) : M (List Out) := do
  let rs ← parserRun env al disk sf
  annotateAll env sf rs

/-- The inner loop of `individual`, src/ohcount.c:162-178. -/
def rowsFrom (sf iter : Ptr) : M (List Out) := do
  if iter = 0 then pure [] else
    let it ← getNode iter
    let v ← getItem locEntry it.item
    let path ← pathOf sf
    let rest ← rowsFrom sf it.next
    pure (.fileRow (rowOf v) path :: rest)
partial_fixpoint

/-- Lines 160-178 of src/ohcount.c. -/
def individualOne (sf : Ptr) : M (List Out) := do
  let p ← fileLoc env al disk sf
  listSort (fun a b => decide (a.language < b.language)) p
  let l ← getNode p
  rowsFrom sf l.head

/-- The loop of a command over the files of the list. -/
def overFiles (body : Ptr → M (List Out)) (list : Ptr) : M (List Out) := do
  let l ← getNode list
  forFiles body l.head

/-- `individual`, src/ohcount.c:145-181. -/
def individualRun (list : Ptr) : M (List Out) := do
  let l ← getNode list
  let n ← countFrom 0 l.head
  let rows ← overFiles (individualOne env al disk) list
  pure (.examining n :: rows)

/-- Lines 211-249 of src/ohcount.c: the table, from the list of counts. -/
def tableRun (locs : Ptr) : M (List Out) := do
  listSort (fun a b => decide (a.code > b.code)) locs
  let rows ← readList locEntry locs
  let code ← listSum locEntry (·.code) locs
  let comments ← listSum locEntry (·.comments) locs
  let blanks ← listSum locEntry (·.blanks) locs
  let files ← listSum locEntry (·.filecount) locs
  listFree locs
  pure (rows.map (fun v => .row (rowOf v)) ++ [.totals ⟨"Total", files, code, comments, percentOf code comments, blanks, code + comments + blanks⟩])

/-- `summary`, src/ohcount.c:202-250. -/
def summaryRun (list : Ptr) : M (List Out) := do
  let l ← getNode list
  let n ← countFrom 0 l.head
  let locs ← filesAnalyze env al disk list
  let rows ← tableRun locs
  pure (.examining n :: rows)

/-- The `switch` of `main`, src/ohcount.c:282-304. -/
def commandRun (list : Ptr) : Command → M (List Out)
  | .annotate => overFiles (annotateOne env al disk) list
  | .detect => overFiles (detectOne env al disk) list
  | .help => pure [.help]
  | .individual => individualRun env al disk list
  | .licenses => overFiles (licensesOne env al disk) list
  | .rawEntities => overFiles (rawOne env raw al disk) list
  | .summary => summaryRun env al disk list

/-- The loop of `main` over the paths, src/ohcount.c:268-281. -/
def pathsRun (before : Byte) (fs : Fs) (list : Ptr) : List Bytes → M (List Out)
  | [] => pure []
  | a :: rest => match fs.openDir a with
    | some entries => do
      filesAddAll al before list (addDirectory a (.dir true entries))
      pathsRun before fs list rest
    | none =>
      if fs.canOpen a then do
        filesAdd al before list a
        pathsRun before fs list rest
      else do
        let os ← pathsRun before fs list rest
        pure (.bad a :: os)

/-- `ohcount_sourcefile_list_add_directory(list, ".")`, src/ohcount.c:266-267. -/
def hereRun (before : Byte) (fs : Fs) (list : Ptr) : M Unit := match fs.openDir [chDot] with
  | some entries => filesAddAll al before list (addDirectory [chDot] (.dir true entries))
  | none => pure ()

/-- The command that the first argument selects, and the number of the first path, src/ohcount.c:253-264. -/
def selected (argv : List Bytes) : Option Command := if argv.length > 1 then (argv[1]?).bind commandFromFlag else none

def firstPath (argv : List Bytes) : Nat := if (selected argv).isSome then 2 else 1

/-- `main`, src/ohcount.c:252-308. -/
def mainRun (before : Byte) (fs : Fs) (argv : List Bytes) : M (List Out) := do
  let list ← listNew al
  onlyIf (firstPath argv = argv.length) (hereRun al before fs list)
  let bad ← pathsRun al before fs list (argv.drop (firstPath argv))
  let os ← commandRun env raw al disk list ((selected argv).getD .summary)
  filesFree list
  pure (bad ++ os)

/-! ### What is printed -/

/-- The lines of `licenses` for a file. -/
def licenseLines (file : Bytes) : List String → List Out
  | [] => []
  | l :: ls => .license l (!ls.isEmpty) file :: licenseLines file ls

/-- A parser in entity mode. -/
def entitiesOf (s : SourceFile) : SourceFile × List Entity :=
  match (s.detectLanguage env disk).language with
  | none => (s.detectLanguage env disk, [])
  | some lang =>
    if env.hasParser lang then
      let s2 := ((s.detectLanguage env disk).loadContents disk).sizeOf disk
      (s2, raw lang s2.contents s2.size)
    else (s.detectLanguage env disk, [])

/-- What a command prints for a file, what it makes of the file, and the number of blocks that it leaves behind. -/
def licensesFor (s : SourceFile) : Option (SourceFile × List Out × Nat) :=
  (s.computeLicenses env disk).bind fun s' => some (s', licenseLines (s.filepath.drop s.parts.filename) (s'.licenses.getD []), licenseLoss s s')

def detectFor (s : SourceFile) : Option (SourceFile × List Out × Nat) :=
  some (s.detectLanguage env disk, [.detected (s.detectLanguage env disk).language s.filepath], 0)

def rawFor (s : SourceFile) : Option (SourceFile × List Out × Nat) :=
  some ((entitiesOf env raw disk s).1, (entitiesOf env raw disk s).2.map .entity, 0)

def annotateLines (contents : Bytes) : List Report → Option (List Out)
  | [] => some []
  | r :: rs => (annotateCallback env.junk contents r).bind fun t => (annotateLines contents rs).bind fun os => some (.line r.lang r.kind t :: os)

def annotateFor (s : SourceFile) : Option (SourceFile × List Out × Nat) :=
  (annotateLines env ((s.runParser env disk).1.contents.getD []) (s.runParser env disk).2).bind fun os => some ((s.runParser env disk).1, os, 0)

def individualFor (s : SourceFile) : Option (SourceFile × List Out × Nat) :=
  (s.computeLoc env disk).bind fun s' =>
    some ({ s' with locList := some (sortByLanguage (s'.locList.getD [])) }, ((sortByLanguage (s'.locList.getD [])).map rowOf).map (.fileRow · s.filepath), 0)

/-- The files of a list one after the other. -/
def forAll (f : SourceFile → Option (SourceFile × List Out × Nat)) : List SourceFile → Option (List SourceFile × List Out × Nat)
  | [] => some ([], [], 0)
  | s :: ss => (f s).bind fun v => (forAll f ss).bind fun w => some (v.1 :: w.1, v.2.1 ++ w.2.1, v.2.2 + w.2.2)

/-- What is printed by `summary`. -/
def summaryLines (s : Summary) : List Out := .examining s.examined :: (s.rows.map .row ++ [.totals s.totals])

/-- What is printed by `individual`. -/
def individualLines (v : Nat × List (Bytes × List Row)) : List Out := .examining v.1 :: v.2.flatMap fun x => x.2.map (.fileRow · x.1)

/-- What is printed by a command, and the number of blocks that it leaves behind.  `none`: the code is undefined. -/
def printed (ss : List SourceFile) : Command → Option (List Out × Nat)
  | .annotate => (forAll (annotateFor env disk) ss).map fun v => (v.2.1, 0)
  | .detect => some ((detect env disk ss).map fun x => .detected x.1 x.2, 0)
  | .help => some ([.help], 0)
  | .individual => (individual env disk ss).map fun v => (individualLines v, 0)
  | .licenses => (forAll (licensesFor env disk) ss).map fun v => v.2
  | .rawEntities => some (ss.flatMap fun s => (entitiesOf env raw disk s).2.map .entity, 0)
  | .summary => (summary env disk ss).map fun s => (summaryLines s, 0)

/-- What a run of the program prints, and the number of blocks that it leaves behind. -/
def program (before : Byte) (fs : Fs) (argv : List Bytes) : Option (List Out × Nat) :=
  let p := plan before fs argv
  (printed env raw disk p.files p.command).map fun v => (p.bad.map .bad ++ v.1, v.2)

end

end Ohcount.Mem
