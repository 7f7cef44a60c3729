import Verif.Mem

/-!
`src/sourcefile.c` in memory: source files, their strings and their lists as blocks that are allocated and freed.  `SourceFile.lean` takes a
source file for a Lean structure; here its fields are pointers.

Not modelled: memory that `ohcount_detect_language` and the parsers use for themselves, `filenames`, and the failure of `malloc`.
-/

namespace Ohcount.Mem

def getText (p : Ptr) : M Bytes := fun m => match m p with
  | some (.text b) => some (b, m)
  | _ => none

/-- The string at `p`, if `p` is not NULL. -/
def getTextOpt (p : Ptr) : M (Option Bytes) := do
  if p = 0 then pure none else
    let b ← getText p
    pure (some b)

def getFile (p : Ptr) : M FileRec := fun m => match m p with
  | some (.file f) => some (f, m)
  | _ => none

def setFile (p : Ptr) (f : FileRec) : M Unit := fun m => match m p with
  | some (.file _) => some ((), put m p (some (.file f)))
  | _ => none

/-- Undefined behaviour. -/
def undefined {α : Type} : M α := fun _ => none

/-- `if (c) { a }`. -/
def onlyIf (c : Prop) [Decidable c] (a : M Unit) : M Unit := if c then a else pure ()

/-- The lists of parsed languages, src/parsed_language.c:54-73. -/
def plEntry : Entry ParsedLanguage :=
  ⟨.pl, fun c => match c with | .pl v => some v | _ => none, fun _ => rfl, (fun _ _ h => nomatch h), ParsedLanguage.name, fun a _ => a, false⟩

section
variable {V : Type} (E : Entry V)

/-- A loop of a caller that reads the entries of a list. -/
def readFrom (iter : Ptr) : M (List V) := do
  if iter = 0 then pure [] else
    let it ← getNode iter
    let v ← getItem E it.item
    let vs ← readFrom it.next
    pure (v :: vs)
partial_fixpoint

def readList (list : Ptr) : M (List V) := do
  let l ← getNode list
  readFrom E l.head

end

variable (env : Env) (al : Alloc) (disk : Disk)

/-- `ohcount_sourcefile_new`, src/sourcefile.c:22-59.  Simplified: the fields, which are set one after the other, are set at the end; `parts`
is what lines 31-40 compute. -/
def fileNew (before : Byte) (path : Bytes) : M Ptr := do
  let sf ← malloc al (.file { parts := splitPath before path })
  let p ← malloc al (.text path)
  let f ← getFile sf
  setFile sf { f with filepath := p }
  pure sf

/-- `ohcount_sourcefile_set_diskpath`, src/sourcefile.c:61-69. -/
def setDiskpath (sf diskpath : Ptr) : M Unit := do
  let f ← getFile sf
  onlyIf (f.diskpath ≠ 0) (free f.diskpath)
  let path ← getText diskpath
  let p ← malloc al (.text path)
  setFile sf { f with diskpath := p }

/-- `ohcount_sourcefile_set_contents`, src/sourcefile.c:71-80.  The string is read up to its first NUL. -/
def setContents (sf contents : Ptr) : M Unit := do
  let f ← getFile sf
  onlyIf (f.contents ≠ 0) (free f.contents)
  let c ← getText contents
  let c' := c.takeWhile (fun b => b != 0)
  let p ← malloc al (.text c')
  setFile sf { f with contents := p, size := c'.length }

/-- Lines 84-105 of `ohcount_sourcefile_get_contents` in src/sourcefile.c: the file is read. -/
def fileRead (sf : Ptr) (f : FileRec) : M Unit := do
  let path ← getText (if f.diskpath ≠ 0 then f.diskpath else f.filepath)
  match disk path with
  | none => setFile sf { f with contents := 0, size := 0 }
  | some b =>
    let c ← malloc al (.text b)
    setFile sf { f with contents := c }
    if b = [] then                                            -- `fread` of no bytes returns 0
      free c
      setFile sf { f with contents := 0, size := 0 }
    else setFile sf { f with contents := c, size := b.length }

/-- `ohcount_sourcefile_get_contents`, src/sourcefile.c:82-108. -/
def fileContents (sf : Ptr) : M Ptr := do
  let f ← getFile sf
  onlyIf (f.contents = 0) (fileRead al disk sf f)
  let f ← getFile sf
  pure f.contents

/-- A call whose result is not used. -/
def ignore (a : M Ptr) : M Unit := do
  let _ ← a
  pure ()

/-- `ohcount_sourcefile_get_contents_size`, src/sourcefile.c:110-114. -/
def fileSize (sf : Ptr) : M Int := do
  let f ← getFile sf
  onlyIf (f.size < 0) (ignore (fileContents al disk sf))
  let f ← getFile sf
  pure f.size

/-- `ohcount_sourcefile_set_language`, src/sourcefile.c:116-124. -/
def setLanguage (sf : Ptr) (name : String) : M Unit := do
  match env.knownName name with
  | some n =>
    let f ← getFile sf
    setFile sf { f with language := some n, detected := true }
  | none => pure ()

/-- What `ohcount_detect_language` can see of the file. -/
def view (sf : Ptr) : M SourceFile := do
  let f ← getFile sf
  let path ← getText f.filepath
  let diskpath ← getTextOpt f.diskpath
  let contents ← getTextOpt f.contents
  pure { filepath := path, parts := f.parts, diskpath := diskpath, contents := contents, size := f.size }

/-- Lines 128-129 of `ohcount_sourcefile_get_language` in src/sourcefile.c, with `ohcount_detect_language` of `env`, which may call
`ohcount_sourcefile_get_contents`. -/
def fileDetect (sf : Ptr) : M Unit := do
  let s ← view sf
  onlyIf ((env.detect s disk).2 = true) (ignore (fileContents al disk sf))
  let f ← getFile sf
  setFile sf { f with language := (env.detect s disk).1, detected := true }

/-- `ohcount_sourcefile_get_language`, src/sourcefile.c:126-132. -/
def fileLanguage (sf : Ptr) : M (Option String) := do
  let f ← getFile sf
  onlyIf (f.detected = false) (fileDetect env al disk sf)
  let f ← getFile sf
  pure f.language

/-- Lines 21-25 of `ohcount_parse` in src/parser.c: the parser of a language is run. -/
def parserCall (sf : Ptr) (lang : String) : M (List Report) := do
  let buffer ← fileContents al disk sf
  let size ← fileSize al disk sf
  let text ← getTextOpt buffer
  pure (env.parse lang text size)

/-- `ohcount_parse`, src/parser.c:12-30.  Simplified: the parser's reports are all made before the first callback runs; the callbacks of the
library change neither the contents nor anything else that a parser reads. -/
def parserRun (sf : Ptr) : M (List Report) := do
  let lang ← fileLanguage env al disk sf
  match lang with
  | none => pure []
  | some lang => if env.hasParser lang then parserCall env al disk sf lang else pure []

/-- Lines 181-189 of `parser_callback` in src/sourcefile.c: the line is recorded in `lang`. -/
def record (contents lang : Ptr) (r : Report) : M Unit := do
  let v ← getItem plEntry lang
  if contents = 0 ∧ r.kind ≠ .lblank then undefined           -- `*p` of NULL
  else
    let text ← getTextOpt contents
    match recordLine (text.getD []) v r with
    | some v' => setItem plEntry lang v'
    | none => undefined

/-- `ohcount_parsed_language_new`, src/parsed_language.c:9-24.  Simplified: the structure and its two buffers, which
`ohcount_parsed_language_free` (lines 48-52) frees together, are one block. -/
def plNew (name : String) (size : Int) : M Ptr := itemNew plEntry al (ParsedLanguage.new env.junk name size.toNat)

/-- Lines 153-179 of `parser_callback` in src/sourcefile.c: the entry of the language in the list, which may be new.  Simplified: the loop of
lines 164-169 returns `iter->pl` instead of `iter`. -/
def plOf (list : Ptr) (name : String) (size : Int) : M Ptr := do
  let l ← getNode list
  if l.head = 0 then first list "" (plNew env al name size)
  else
    let pl ← getFrom plEntry name l.head
    if pl = 0 then append al list "" (plNew env al name size) else pure pl

/-- `parser_callback`, src/sourcefile.c:146-190. -/
def callback (sf : Ptr) (r : Report) : M Unit := do
  let f ← getFile sf
  let lang ← plOf env al f.parsed r.lang f.size
  record f.contents lang r

/-- The calls of `parser_callback`. -/
def callbacks (sf : Ptr) : List Report → M Unit
  | [] => pure ()
  | r :: rs => do
    callback env al sf r
    callbacks sf rs

/-- Lines 194-203 of `ohcount_sourcefile_parse` in src/sourcefile.c. -/
def fileParseNow (sf : Ptr) (f : FileRec) : M Unit := do
  let list ← listNew al
  setFile sf { f with parsed := list }
  let reports ← parserRun env al disk sf
  callbacks env al sf reports
  let f ← getFile sf
  free f.contents
  setFile sf { f with contents := 0 }

/-- `ohcount_sourcefile_parse`, src/sourcefile.c:192-205. -/
def fileParse (sf : Ptr) : M Unit := do
  let f ← getFile sf
  onlyIf (f.parsed = 0) (fileParseNow env al disk sf f)

/-- `ohcount_sourcefile_get_parsed_language_list`, src/sourcefile.c:207-211. -/
def fileParsed (sf : Ptr) : M Ptr := do
  fileParse env al disk sf
  let f ← getFile sf
  pure f.parsed

/-- The loop of `ohcount_sourcefile_get_loc_list`, src/sourcefile.c:242-249. -/
def locsFrom (list iter : Ptr) : M Unit := do
  if iter = 0 then pure () else
    let it ← getNode iter
    let v ← getItem plEntry it.item
    let loc ← itemNew locEntry al ⟨v.name, v.code.count, v.comments.count, v.blanksCount, 1⟩
    listAdd locEntry al list loc
    free loc
    let it ← getNode iter
    locsFrom list it.next
partial_fixpoint

/-- Lines 238-250 of `ohcount_sourcefile_get_loc_list` in src/sourcefile.c. -/
def fileLocNow (sf : Ptr) : M Unit := do
  let list ← listNew al
  fileParse env al disk sf
  let pls ← fileParsed env al disk sf
  let l ← getNode pls
  locsFrom al list l.head
  let f ← getFile sf
  setFile sf { f with locs := list }

/-- `ohcount_sourcefile_get_loc_list`, src/sourcefile.c:236-253. -/
def fileLoc (sf : Ptr) : M Ptr := do
  let f ← getFile sf
  onlyIf (f.locs = 0) (fileLocNow env al disk sf)
  let f ← getFile sf
  pure f.locs

/-- The loop of `ohcount_detect_license`, src/licenses.c:798-857: the parsed languages that it looks at.  The buffer that it allocates for
each of them (line 804) is not freed. -/
def licenseBuffers (iter : Ptr) : M (List ParsedLanguage) := do
  if iter = 0 then pure [] else
    let it ← getNode iter
    let v ← getItem plEntry it.item
    let _ ← malloc al (.text [])
    let vs ← licenseBuffers it.next
    pure (v :: vs)
partial_fixpoint

/-- Lines 868-878 of `ohcount_detect_license` in src/licenses.c: a license is added to the list. -/
def licenseAdd (list : Ptr) (name : String) : M Unit := do
  let l ← getNode list
  if l.head = 0 then ignore (first list name (pure 0)) else ignore (append al list name (pure 0))

def licensesAdd (list : Ptr) : List String → M Unit
  | [] => pure ()
  | l :: ls => do
    licenseAdd al list l
    licensesAdd list ls

/-- `ohcount_detect_license`, src/licenses.c:778-885.  Which licenses there are is what `env` says of the parsed languages. -/
def detectLicense (sf : Ptr) : M Ptr := do
  let list ← listNew al
  fileParse env al disk sf
  let pls ← fileParsed env al disk sf
  let l ← getNode pls
  let vs ← licenseBuffers al l.head
  licensesAdd al list (env.detectLicenses vs)
  pure list

/-- Line 232 of src/sourcefile.c. -/
def fileLicensesNow (sf : Ptr) : M Unit := do
  let list ← detectLicense env al disk sf
  let f ← getFile sf
  setFile sf { f with licenses := list }

/-- `ohcount_sourcefile_get_license_list`, src/sourcefile.c:230-234. -/
def fileLicenses (sf : Ptr) : M Ptr := do
  let f ← getFile sf
  onlyIf (f.licenses = 0) (fileLicensesNow env al disk sf)
  let f ← getFile sf
  pure f.licenses

/-- A loop of a caller that reads the names of the licenses. -/
def readNamesFrom (iter : Ptr) : M (List String) := do
  if iter = 0 then pure [] else
    let it ← getNode iter
    let ls ← readNamesFrom it.next
    pure (it.lic :: ls)
partial_fixpoint

def readNames (list : Ptr) : M (List String) := do
  let l ← getNode list
  readNamesFrom l.head

/-- `ohcount_sourcefile_free`, src/sourcefile.c:329-342.  `ohcount_parsed_language_list_free` (src/parsed_language.c:63-73) and
`ohcount_license_list_free` (src/licenses.c:896-906), whose nodes have no item, are `listFree`. -/
def fileFree (sf : Ptr) : M Unit := do
  let f ← getFile sf
  free f.filepath
  onlyIf (f.diskpath ≠ 0) (free f.diskpath)
  onlyIf (f.contents ≠ 0) (free f.contents)
  onlyIf (f.parsed ≠ 0) (listFree f.parsed)
  onlyIf (f.licenses ≠ 0) (listFree f.licenses)
  onlyIf (f.locs ≠ 0) (listFree f.locs)
  free sf

/-! ### Lists of source files -/

/-- `ohcount_sourcefile_list_add_file`, src/sourcefile.c:355-368. -/
def filesAdd (before : Byte) (list : Ptr) (path : Bytes) : M Unit := do
  let l ← getNode list
  if l.head = 0 then ignore (first list "" (fileNew al before path)) else ignore (append al list "" (fileNew al before path))

/-- `ohcount_sourcefile_list_add_directory`, src/sourcefile.c:370-398: the calls of `ohcount_sourcefile_list_add_file` for the paths that
`addDirectory` finds. -/
def filesAddAll (before : Byte) (list : Ptr) : List Bytes → M Unit
  | [] => pure ()
  | p :: ps => do
    filesAdd al before list p
    filesAddAll before list ps

/-- A loop of a caller that walks to the file number `n` of a list. -/
def nthFrom (iter : Ptr) : Nat → M Ptr
  | 0 => do
    let it ← getNode iter
    pure it.item
  | n + 1 => do
    let it ← getNode iter
    nthFrom it.next n

def filesNth (list : Ptr) (n : Nat) : M Ptr := do
  let l ← getNode list
  nthFrom l.head n

/-- The loop of `ohcount_sourcefile_list_analyze_languages`, src/sourcefile.c:403-407. -/
def analyzeFrom (locs iter : Ptr) : M Unit := do
  if iter = 0 then pure () else
    let it ← getNode iter
    let l ← fileLoc env al disk it.item
    listAddList locEntry al locs l
    let it ← getNode iter
    analyzeFrom locs it.next
partial_fixpoint

/-- `ohcount_sourcefile_list_analyze_languages`, src/sourcefile.c:400-409. -/
def filesAnalyze (list : Ptr) : M Ptr := do
  let locs ← listNew al
  let l ← getNode list
  analyzeFrom env al disk locs l.head
  pure locs

/-- The loop of `ohcount_sourcefile_list_free`, src/sourcefile.c:414-419. -/
def filesFreeFrom (iter : Ptr) : M Unit := do
  if iter = 0 then pure () else
    let it ← getNode iter
    fileFree it.item
    free iter
    filesFreeFrom it.next
partial_fixpoint

/-- `ohcount_sourcefile_list_free`, src/sourcefile.c:411-421. -/
def filesFree (list : Ptr) : M Unit := do
  let l ← getNode list
  if l.head ≠ 0 then filesFreeFrom l.head else free list

end Ohcount.Mem
