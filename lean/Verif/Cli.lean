/-
Model of the command line tool, `src/ohcount.c`.
-/
import Verif.SourceFile

namespace Ohcount.Cli

open Ohcount

/-! ### Sorting for display -/

/-- The inner loop of the two sort functions, src/ohcount.c:131-135 and 188-192: `best` is
the position of `min`/`max`, `iter2` the position looked at, the first argument the
number of entries left. `better a b` is the comparison of the entry at `iter2` with
the best one so far. -/
def findBest (better : Loc → Loc → Bool) (l : LocList) : Nat → Nat → Nat → Nat
  | 0, _, best => best
  | n + 1, iter2, best =>
    match l[iter2]?, l[best]? with
    | some a, some b => findBest better l n (iter2 + 1) (if better a b then iter2 else best)
    | _, _ => best                                    -- not reached

/-- `Loc *temp = iter->loc; iter->loc = min->loc; min->loc = temp;`,
src/ohcount.c:136-140, 193-197. -/
def swapLoc (l : LocList) (i j : Nat) : LocList :=
  match l[i]?, l[j]? with
  | some a, some b => if i ≠ j then (l.set i b).set j a else l
  | _, _ => l                                         -- not reached

/-- The outer loop, src/ohcount.c:128-142, 185-199: `i` is the position of `iter`. -/
def sortFrom (better : Loc → Loc → Bool) : Nat → Nat → LocList → LocList
  | 0, _, l => l
  | n + 1, i, l =>
    sortFrom better n (i + 1) (swapLoc l i (findBest better l (l.length - (i + 1)) (i + 1) i))

/-- `sort_loc_list_by_language`, src/ohcount.c:126-143.  `strcmp` compares bytes as
unsigned values, which for UTF-8 is the order of Lean's strings. -/
def sortByLanguage (l : LocList) : LocList :=
  sortFrom (fun a b => decide (a.language < b.language)) l.length 0 l

/-- `sort_loc_list_by_code`, src/ohcount.c:183-200. -/
def sortByCode (l : LocList) : LocList :=
  sortFrom (fun a b => decide (a.code > b.code)) l.length 0 l

/-! ### The reports -/

/-- One printed row. `percent` holds numerator and denominator of the printed quotient
(a `float` in C; only the division is modelled, not its rounding), or nothing where
the code prints a constant. `files` is the file count column of the summary. -/
structure Row where
  language : String
  files : Int
  code : Int
  comments : Int
  percent : Option (Int × Int)
  blanks : Int
  total : Int
  deriving DecidableEq, Repr

/-- The comment percentage, src/ohcount.c:167-172, 224-229, 243-246. -/
def percentOf (code comments : Int) : Option (Int × Int) :=
  if comments + code > 0 then some (comments, comments + code) else none

/-- A row of the summary or of the individual report, src/ohcount.c:164-176, 220-232. -/
def rowOf (l : Loc) : Row :=
  ⟨l.language, l.filecount, l.code, l.comments, percentOf l.code l.comments, l.blanks,
   l.code + l.comments + l.blanks⟩

/-- The output of `summary`: the number of files examined, the rows and the totals row. -/
structure Summary where
  examined : Nat
  rows : List Row
  totals : Row
  deriving DecidableEq, Repr

/-- `summary` after the analysis, src/ohcount.c:211-248. -/
def summaryOf (examined : Nat) (locs : LocList) : Summary :=
  let l := sortByCode locs
  { examined
    rows := l.map rowOf
    totals := ⟨"Total", l.filecount, l.code, l.comments, percentOf l.code l.comments, l.blanks,
      l.code + l.comments + l.blanks⟩ }

/-- `summary`, src/ohcount.c:202-250. -/
def summary (env : Env) (disk : Disk) (files : List SourceFile) : Option Summary :=
  (analyzeLanguages env disk files).map (summaryOf files.length)

/-- `individual`, src/ohcount.c:145-181: the number of files and, file by file, the path
and the rows. -/
def individualLoop (env : Env) (disk : Disk) : List SourceFile → Option (List (Bytes × List Row))
  | [] => some []
  | s :: rest =>
    (s.computeLoc env disk).bind fun s1 =>
      (individualLoop env disk rest).bind fun r =>
        some ((s.filepath, (sortByLanguage (s1.locList.getD [])).map rowOf) :: r)

def individual (env : Env) (disk : Disk) (files : List SourceFile) :
    Option (Nat × List (Bytes × List Row)) :=
  (individualLoop env disk files).map fun r => (files.length, r)

/-- `detect`, src/ohcount.c:31-38: the arguments of `printf("%s\t%s\n", ...)`, file by
file. `none` is a null pointer passed for `%s`. -/
def detect (env : Env) (disk : Disk) (files : List SourceFile) : List (Option String × Bytes) :=
  files.map fun s => ((s.detectLanguage env disk).language, s.filepath)

/-- `annotate_callback`, src/ohcount.c:12-20: `char buf[length]` is filled by `strncpy` and
`buf[length]` is set. The result is the string printed after language and kind;
`none` is a store outside the array. (A negative length is undefined as well; ranges
are non-negative here.) -/
def annotateCallback (junk : Byte) (contents : Bytes) (r : Report) : Option Bytes :=
  let length := (r.e - r.s).toNat
  let buf := List.replicate length junk
  (storeAll buf 0 (strncpyBytes (contents.drop r.s.toNat) length)).bind fun buf1 =>
    store buf1 length 0

/-! ### `main` -/

/-- `COMMAND_*`, src/ohcount.h:142-148. -/
inductive Command where
  | annotate | detect | help | individual | licenses | rawEntities | summary
  deriving DecidableEq, Repr

/-- The table `src/hash/options.gperf`:5-17. -/
def optionTable : List (String × Command) :=
  [("-a", .annotate), ("--annotate", .annotate), ("-d", .detect), ("--detect", .detect),
   ("-h", .help), ("--help", .help), ("-i", .individual), ("--individual", .individual),
   ("-l", .licenses), ("--license", .licenses), ("-re", .rawEntities), ("-s", .summary),
   ("--summary", .summary)]

/-- `ohcount_hash_command_from_flag` (generated by gperf from the table): exact lookup. -/
def commandFromFlag (flag : Bytes) : Option Command :=
  (optionTable.find? fun e => decide (e.1.toUTF8.toList = flag)).map Prod.snd

/-- What the program sees of the disk at start: `opendir` (the tree below, if it succeeds)
and whether `fopen` succeeds. -/
structure Fs where
  openDir : Bytes → Option (List (Bytes × Node))
  canOpen : Bytes → Bool

/-- What `main` has determined before it carries out the command: command, file list,
reported bad arguments. -/
structure Plan where
  command : Command
  files : List SourceFile
  bad : List Bytes

/-- `ohcount_sourcefile_list_add_directory(list, d)`: see `listAddDirectory`. -/
def addDir (before : Byte) (fs : Fs) (l : List SourceFile) (d : Bytes) : List SourceFile :=
  match fs.openDir d with
  | some entries => listAddDirectory before l d (.dir true entries)
  | none => l

/-- The loop over the paths, src/ohcount.c:269-281. -/
def addPaths (before : Byte) (fs : Fs) : List Bytes → List SourceFile × List Bytes →
    List SourceFile × List Bytes
  | [], acc => acc
  | a :: rest, (files, bad) =>
    match fs.openDir a with
    | some _ => addPaths before fs rest (addDir before fs files a, bad)
    | none =>
      if fs.canOpen a then addPaths before fs rest (listAddFile before files a, bad)
      else addPaths before fs rest (files, bad ++ [a])

/-- `main` up to the `switch`, src/ohcount.c:252-281; `argv` includes the program name. -/
def plan (before : Byte) (fs : Fs) (argv : List Bytes) : Plan :=
  let opt := if argv.length > 1 then (argv[1]?).bind commandFromFlag else none
  let i := if opt.isSome then 2 else 1
  let list0 := if i = argv.length then addDir before fs [] [chDot] else []
  let (files, bad) := addPaths before fs (argv.drop i) (list0, [])
  ⟨opt.getD .summary, files, bad⟩

end Ohcount.Cli
