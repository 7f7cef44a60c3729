/-
Model of `src/parsed_language.c` and of `parser_callback` in
`src/sourcefile.c`, with explicit memory: an allocation is a list of bytes of
the allocated length, a pointer into it is an offset, and a store outside of it
makes the whole operation undefined (`none`).
-/
import Verif.Loc

namespace Ohcount

abbrev Byte := UInt8

/-! ### Memory -/

/-- `mem[i] = v`; `none` if `i` is outside the allocation. -/
def store (mem : List Byte) (i : Nat) (v : Byte) : Option (List Byte) :=
  if i < mem.length then some (mem.set i v) else none

/-- Stores the bytes at `i, i+1, ...`; `none` as soon as one is outside. -/
def storeAll (mem : List Byte) (i : Nat) : List Byte → Option (List Byte)
  | [] => some mem
  | b :: bs => (store mem i b).bind fun mem' => storeAll mem' (i + 1) bs

/-- The `n` bytes `strncpy(dst, src, n)` writes to `dst`: the bytes of `src` up to
the first NUL (or the end of the buffer, which is NUL terminated, see
sourcefile.c:78/99), padded with NUL to exactly `n` bytes. -/
def strncpyBytes (src : List Byte) : Nat → List Byte
  | 0 => []
  | n + 1 =>
    match src with
    | [] => List.replicate (n + 1) 0
    | b :: src' => if b = 0 then List.replicate (n + 1) 0 else b :: strncpyBytes src' n

/-! ### ParsedLanguage -/

/-- One of the two text buffers of a `ParsedLanguage` (`code`, `code_p`,
`code_count`, or the same for comments), src/structs.h. -/
structure TextBuf where
  /-- the allocation of `buffer_size + 5` bytes -/
  mem : List Byte
  /-- offset of the write pointer -/
  p : Nat
  /-- number of lines recorded -/
  count : Nat
  deriving DecidableEq, Repr

/-- `typedef struct {...} ParsedLanguage`, src/structs.h. -/
structure ParsedLanguage where
  name : String
  bufferSize : Nat
  code : TextBuf
  comments : TextBuf
  blanksCount : Nat
  deriving DecidableEq, Repr

namespace ParsedLanguage

/-- A fresh buffer: `malloc(buffer_size + 5)` followed by `*p = '\0'`,
src/parsed_language.c:14-17.  The content of fresh memory is `junk`, a
parameter of the model. -/
def freshBuf (junk : Byte) (bufferSize : Nat) : TextBuf :=
  { mem := 0 :: List.replicate (bufferSize + 4) junk, p := 0, count := 0 }

/-- `ohcount_parsed_language_new`, src/parsed_language.c:9-24. -/
def new (junk : Byte) (name : String) (bufferSize : Nat) : ParsedLanguage :=
  { name, bufferSize, code := freshBuf junk bufferSize,
    comments := freshBuf junk bufferSize, blanksCount := 0 }

/-- Body shared by `ohcount_parsed_language_add_code` (src/parsed_language.c:26-35)
and `ohcount_parsed_language_add_comment` (37-46).  `src` is the text at the
pointer argument, up to the end of the file contents.  A negative length passes
the guard and then reaches `strncpy` as a huge unsigned number: undefined. -/
def addText (bufferSize : Nat) (b : TextBuf) (src : List Byte) (length : Int) : Option TextBuf :=
  if (b.p : Int) + length < (bufferSize : Int) + 5 then
    if length < 0 then none
    else
      (storeAll b.mem b.p (strncpyBytes src length.toNat)).bind fun m =>
        (store m (b.p + length.toNat) 0).bind fun m' =>
          some { mem := m', p := b.p + length.toNat, count := b.count + 1 }
  else some b                                     -- silently ignored, not counted

def addCode (pl : ParsedLanguage) (src : List Byte) (length : Int) : Option ParsedLanguage :=
  (addText pl.bufferSize pl.code src length).map fun b => { pl with code := b }

def addComment (pl : ParsedLanguage) (src : List Byte) (length : Int) : Option ParsedLanguage :=
  (addText pl.bufferSize pl.comments src length).map fun b => { pl with comments := b }

end ParsedLanguage

/-- The kind of line reported by a line parser: the strings `"lcode"`,
`"lcomment"`, `"lblank"` (parser_macros.h:169-260). -/
inductive Kind where
  | lcode | lcomment | lblank
  deriving DecidableEq, Repr

/-- One call of the line callback: `callback(lang, kind, start, end, userdata)`. -/
structure Report where
  lang : String
  kind : Kind
  s : Int
  e : Int
  deriving DecidableEq, Repr

/-- `*p == ' ' || *p == '\t'`, src/sourcefile.c:182. -/
def isBlankByte (b : Byte) : Bool := b == 32 || b == 9

/-- The part of `parser_callback` after the language entry has been found,
src/sourcefile.c:181-189.  `contents` is the file text without its terminating
NUL.  Positions outside `0..contents.length` are undefined to dereference.  The
loop `while (*p == ' ' || *p == '\t') p++` stops at the terminating NUL at the
latest. -/
def recordLine (contents : List Byte) (pl : ParsedLanguage) (r : Report) : Option ParsedLanguage :=
  match r.kind with
  | .lblank => some { pl with blanksCount := pl.blanksCount + 1 }
  | k =>
    if r.s < 0 ∨ (contents.length : Int) < r.s then none
    else
      let start := r.s.toNat
      let p := start + ((contents.drop start).takeWhile isBlankByte).length
      let src := contents.drop p
      match k with
      | .lcode => pl.addCode src (r.e - p)
      | _ => pl.addComment src (r.e - p)

/-- `parser_callback`, src/sourcefile.c:146-190: find the entry of the language or
append a new one, then record the line in it. -/
def parserCallback (junk : Byte) (contents : List Byte) :
    List ParsedLanguage → Report → Option (List ParsedLanguage)
  | [], r =>
    (recordLine contents (ParsedLanguage.new junk r.lang contents.length) r).map fun pl => [pl]
  | pl :: rest, r =>
    if pl.name = r.lang then (recordLine contents pl r).map fun pl' => pl' :: rest
    else (parserCallback junk contents rest r).map fun rest' => pl :: rest'

/-- The parsed languages after a sequence of callbacks, starting from the fresh list
of `ohcount_sourcefile_parse` (src/sourcefile.c:194-195). -/
def recordAll (junk : Byte) (contents : List Byte) :
    List ParsedLanguage → List Report → Option (List ParsedLanguage)
  | pls, [] => some pls
  | pls, r :: rs => (parserCallback junk contents pls r).bind fun pls' =>
      recordAll junk contents pls' rs

/-- The loop of `ohcount_sourcefile_get_loc_list`, src/sourcefile.c:238-250. -/
def locListOf (pls : List ParsedLanguage) : LocList :=
  pls.foldl (fun l pl => l.addLoc
    ⟨pl.name, pl.code.count, pl.comments.count, pl.blanksCount, 1⟩) []

end Ohcount
