/-
Model of `src/detector.c`: language detection.

libmagic and the regular expressions used by two of the disambiguators are
parameters (`Oracles`).  A C pointer into the contents is the rest of the
contents from there on; the empty rest is the terminating NUL.

Many functions store one byte behind an array or read one byte before it.  What
this does is a parameter (`Stack`): in strict C (`Stack.strict`) such an access is
undefined and the result is `none`.
-/
import Verif.SourceFile
import Verif.Diff
import Verif.Tables

namespace Ohcount.Detector

open Ohcount Ohcount.Tables Ohcount.Diff

/-- How the machine treats accesses just outside a local array: `pad` says whether one
byte behind the array may be overwritten without harm, `under` is the byte read just
before the array. -/
structure Stack where
  pad : Bool
  under : Option Byte
  deriving DecidableEq, Repr

/-- The C standard: both are undefined. -/
def Stack.strict : Stack := ⟨false, none⟩

/-- External libraries: the text libmagic returns (for a file on disk or for a buffer),
the two Puppet expressions and the Perl expression. -/
structure Oracles where
  magicFile : Bytes → Bytes
  magicBuffer : Bytes → Bytes
  puppetKeyword : Bytes → Bool
  puppetConstruct : Bytes → Bool
  perlShebang : Bytes → Bool

/-- What detection looks at in a `SourceFile`. -/
structure Input where
  filepath : Bytes
  parts : PathParts
  diskpath : Option Bytes
  /-- what `ohcount_sourcefile_get_contents` returns -/
  contents : Option Bytes
  filenames : Option (List Bytes)

/-- The file extension, a pointer to the end of `filepath` when there is none. -/
def Input.ext (i : Input) : Bytes := i.filepath.drop i.parts.ext
/-- The file name. -/
def Input.filename (i : Input) : Bytes := i.filepath.drop i.parts.filename
/-- The bytes from `p` to `eof`; both pointers are null if there are no contents. -/
def Input.text (i : Input) : Bytes := i.contents.getD []

/-! ### C library -/

/-- `tolower` in the C locale. -/
def tolower (b : Byte) : Byte := if 65 ≤ b ∧ b ≤ 90 then b + 32 else b
/-- `isdigit`. -/
def isdigit (b : Byte) : Bool := 48 ≤ b && b ≤ 57
/-- `islower`. -/
def islower (b : Byte) : Bool := 97 ≤ b && b ≤ 122
/-- `isupper`. -/
def isupper (b : Byte) : Bool := 65 ≤ b && b ≤ 90
/-- `isalnum`. -/
def isalnum (b : Byte) : Bool := isdigit b || islower b || isupper b
/-- `isspace`. -/
def isspace (b : Byte) : Bool := b == 32 || (9 ≤ b && b ≤ 13)
/-- A blank or a tab. -/
def isBlank (b : Byte) : Bool := b == 32 || b == 9
/-- A carriage return or a line feed. -/
def isNl (b : Byte) : Bool := b == 13 || b == 10
/-- Neither. -/
def notNl (b : Byte) : Bool := !isNl b

/-- ASCII bytes of a literal. -/
def bs (s : String) : Bytes := s.toList.map fun c => UInt8.ofNat c.toNat

/-- `*(p + i)`: defined up to the terminating NUL. -/
def rd (p : Bytes) (i : Nat) : Option Byte :=
  if i < p.length then p[i]? else if i = p.length then some 0 else none

/-- `*p`. -/
def hd (p : Bytes) : Byte := p.headD 0

/-- `strncmp(p, s, strlen(s)) == 0` for a literal `s`. -/
def starts (p : Bytes) (s : String) : Bool := (bs s).isPrefixOf p

/-- `strncasecmp(p, s, strlen(s)) == 0` for a lower-case literal `s`. -/
def startsCase (p : Bytes) (s : String) : Bool := (bs s).isPrefixOf (p.map tolower)

/-- `strstr(p, s)` for a non-empty literal `s`; it looks no further than the first NUL. -/
def strstr (s : String) : Bytes → Option Bytes
  | [] => none
  | b :: p => if starts (b :: p) s then some (b :: p) else if b = 0 then none else strstr s p

/-! ### Table lookups -/

/-- Lookup in a table. -/
def lookup {α : Type} (t : List (Bytes × α)) (k : Bytes) : Option α :=
  (t.find? fun e => decide (e.1 = k)).map Prod.snd

/-- `ohcount_hash_language_from_ext`. -/
def fromExt (k : Bytes) : Option ExtVal := lookup extensions k
/-- `ohcount_hash_language_from_name`. -/
def fromName (k : Bytes) : Option String := lookup languages k
/-- `ohcount_hash_language_from_filename`. -/
def fromFilename (k : Bytes) : Option String := lookup filenames k
/-- `ohcount_hash_is_cppheader`. -/
def isCppHeader (k : Bytes) : Bool := cppHeaders.any fun h => decide (h = k)

/-! ### Lines -/

/-- `strncpy(line, p, length); line[length] = '\0'` with `char line[81]` and
`length = min(pe - p, 81)` (e.g. src/detector.c:149-151): the C string in `line`. -/
def fetchLine (st : Stack) (raw : Bytes) : Option Bytes :=
  if raw.length ≤ 80 ∨ st.pad then some (cstr (raw.take 81)) else none

/-- The same for a stretch copied into `char buf[81]` (e.g. src/detector.c:595-597). -/
def copyBuf (st : Stack) (word : Bytes) : Option Bytes :=
  if word.length ≤ 80 ∨ st.pad then some word else none

/-- The loop over the lines of the contents (src/detector.c:323-348, 572-637, 741-848,
1029-1055): `f` either returns from the function (`.error`) or continues. The first
argument bounds the number of rounds; running out of it would mean non-termination. -/
def lineLoop {σ : Type} (st : Stack) (f : σ → Bytes → Option (Except (Option String) σ)) :
    Nat → Bytes → σ → Option (Except (Option String) σ)
  | 0, _, _ => none
  | fuel + 1, p, s =>
    if p = [] then some (.ok s)
    else
      (fetchLine st (p.takeWhile notNl)).bind fun line =>
        (f s line).bind fun r =>
          match r with
          | .error e => some (.error e)
          | .ok s' => lineLoop st f fuel ((p.dropWhile notNl).dropWhile isNl) s'

/-! ### Disambiguators -/

/-- `disambiguate_aspx`, src/detector.c:227-254. `char buf[length]; ... buf[length] = '\0'`
stores behind the array. After a directive that decides nothing, `p` points into `buf`,
not into the contents any more, and the loop ends (the model takes the comparison
`p < eof` of unrelated pointers to be false, as it is with the stack above the heap). -/
def aspx (st : Stack) : Bytes → Option (Option String)
  | [] => some (some "cs_aspx")
  | b :: p =>
    match strstr "<%@" (b :: p) with
    | none => some (some "cs_aspx")
    | some q =>
      match strstr "%>" q with
      | none =>
        -- the loop increments `p` and searches again; the next search starts behind `q`
        some (some "cs_aspx")
      | some e =>
        let body := (q.drop 3).take ((q.drop 3).length - e.length)
        if st.pad then
          let low := (cstr body).map tolower
          let r := low.dropWhile isBlank
          if starts r "page" && (strstr "language=\"vb\"" (r.drop 4)).isSome
          then some (some "vb_aspx") else some (some "cs_aspx")
        else none

/-- `disambiguate_asx`, src/detector.c:257-279. -/
def asx : Bytes → Option String
  | [] => some "assembler"
  | b :: p =>
    if isBlank b || isNl b then asx p
    else if b == 60 || b == 0 || b == 0xef || b == 0xfe || b == 0xff then none
    else some "assembler"

/-- `disambiguate_basic`, one line: src/detector.c:331-342, `/^\d+\s+\w/`. -/
def basicLine (line : Bytes) : Bool :=
  if isdigit (hd line) then
    let p := line.dropWhile isdigit
    isBlank (hd p) && isalnum (hd (p.dropWhile isBlank))
  else false

/-- The extension of a file in the file context, src/detector.c:355-364. -/
def vbFile (name : Bytes) : Bool :=
  let e := (name.reverse.takeWhile fun b => b != 46).reverse
  e == bs "frm" || e == bs "frx" || e == bs "vba" || e == bs "vbp" || e == bs "vbs"

/-- `disambiguate_basic`, src/detector.c:314-371. -/
def basic (st : Stack) (i : Input) : Option (Option String) :=
  (lineLoop st (fun (_ : Unit) line =>
      some (if basicLine line then .error (some "classic_basic") else .ok ()))
    (i.text.length + 1) i.text ()).map fun r =>
      match r with
      | .error e => e
      | .ok _ =>
        if (i.filenames.getD []).any vbFile then some "visualbasic" else some "structured_basic"

/-- One step of the loop of `disambiguate_b`, src/detector.c:285-308: whether it returns
`LANG_LIMBO`, or else where `p` is afterwards. -/
def bStep (p : Bytes) : Option (Except Unit Bytes) :=
  let blankAt (c : Byte) : Bool := c == 32 || c == 9
  (if starts p "implement" then (rd p 9).map blankAt else some false).bind fun impl =>
  if impl then some (.error ())
  else
  (if starts p "include" then (rd p 7).map blankAt else some false).bind fun incl =>
  if incl then
    let q := (p.drop 7).dropWhile isBlank
    if hd q == 34 then
      (rd q 1).bind fun c => some (if c == 59 then .error () else .ok q)
    else some (.ok q)
  else if starts p "return" || starts p "break" || starts p "continue" then
    some (if (strstr ";" p).isSome then .error () else .ok p)
  else if starts p "pick" || starts p "case" then
    some (if (strstr "{" p).isSome then .error () else .ok p)
  else some (.ok p)

/-- The loop of `disambiguate_b`, src/detector.c:284-310: true for Limbo. `p++` behind the
terminator is out of bounds. -/
def bLoop : Nat → Bytes → Option Bool
  | 0, _ => none
  | fuel + 1, p =>
    if p = [] then some false
    else (bStep p).bind fun r =>
      match r with
      | .error _ => some true
      | .ok q => if q = [] then some false else bLoop fuel (q.drop 1)

/-- `disambiguate_b`, src/detector.c:281-312. -/
def b (st : Stack) (i : Input) : Option (Option String) :=
  (bLoop (i.text.length + 1) i.text).bind fun limbo =>
    if limbo then some (some "limbo") else basic st i

/-- `disambiguate_cs`, src/detector.c:373-380. -/
def cs (i : Input) : Option String :=
  match i.contents with
  | some c => if (strstr "<?cs" c).isSome then some "clearsilver_template" else some "csharp"
  | none => some "csharp"

/-- The value of `BINARY`. -/
def BINARY : String := "\x01"

/-- `disambiguate_dat`, src/detector.c:382-415. -/
def dat : Bytes → Option String
  | [] => none
  | b :: p =>
    if isBlank b || isNl b then dat p
    else if b == 47 then (if hd p == 42 then some "ampl" else none)
    else if b == 35 then some "ampl"
    else if b == 100 then (if starts (b :: p) "data" then some "ampl" else some BINARY)
    else if b == 112 then (if starts (b :: p) "param" then some "ampl" else some BINARY)
    else if b == 115 then (if starts (b :: p) "set" then some "ampl" else some BINARY)
    else some BINARY

/-- `disambiguate_def`, src/detector.c:417-440. -/
def deff : Bytes → Option String
  | [] => none
  | b :: p =>
    if isBlank b || isNl b then deff p
    else if b == 40 then (if hd p == 42 then some "modula2" else none)
    else if b == 68 then (if starts (b :: p) "DEFINITION" then some "modula2" else none)
    else none

/-- One line of `disambiguate_fs`, src/detector.c:452-459: which of the two counters it
increments. -/
def fsLine (p : Bytes) : Nat × Nat :=
  let q := p.dropWhile isBlank
  if starts q "\\ " then (1, 0)
  else if starts q ": " then (1, 0)
  else if starts q "|" then (0, 1)
  else if starts q "let " then (0, 1)
  else if starts q "type " then (0, 1)
  else if starts q "//" then (0, 1)
  else (0, 0)

/-- The loop of `disambiguate_fs`, src/detector.c:451-464; `p` is the rest of the C string. -/
def fsLoop : Nat → Bytes → Nat × Nat → Option (Nat × Nat)
  | 0, _, _ => none
  | fuel + 1, p, (f, s) =>
    if p = [] then some (f, s)
    else
      let d := fsLine p
      fsLoop fuel ((((p.dropWhile isBlank).dropWhile notNl)).dropWhile isNl) (f + d.1, s + d.2)

/-- `disambiguate_fs`, src/detector.c:442-471. -/
def fs (i : Input) : Option (Option String) :=
  match i.contents with
  | none => some none
  | some c =>
    (fsLoop ((cstr c).length + 1) (cstr c) (0, 0)).map fun (forth, fsharp) =>
      if forth > fsharp then some "forth" else if forth < fsharp then some "fsharp" else none

/-- Inside quotes, src/detector.c:511-523: skips to the closing quote or the end of the
line, counting columns. -/
def quoted (q : Byte) : Bytes → Nat → Bytes × Nat
  | [], i => ([], i)
  | c :: p, i => if c == q || isNl c then (c :: p, i) else quoted q p (i + 1)

def skipQuote (q : Byte) (p : Bytes) (i : Nat) : Bytes × Nat :=
  match p with
  | [] => ([], i)
  | c :: p' => if c == q then quoted q p' (i + 1) else (c :: p', i)

/-- The loop over the characters of a statement line, src/detector.c:493-530: `.error`
means free format, otherwise the position of the end of the line. -/
def fortranLine : Nat → Bytes → Nat → Bool → Option (Except Unit Bytes)
  | 0, _, _, _ => none
  | fuel + 1, p, i, blanklabel =>
    match p with
    | [] => some (.ok [])
    | c0 :: p1 =>
      if isNl c0 then some (.ok (c0 :: p1))
      else
        let i := i + 1
        let c := hd p1
        let blanklabel := if i ≤ 5 then blanklabel && c == 32 else blanklabel
        if i ≤ 5 && !isdigit c && c != 32 && c != 33 then some (.error ())
        else if i == 6 && !blanklabel && c != 32 && c != 48 then some (.error ())
        else if c == 33 && i != 6 then fortranLine fuel (p1.dropWhile notNl) i blanklabel
        else
          let (p2, i2) := skipQuote 34 p1 i
          let (p3, i3) := skipQuote 39 p2 i2
          if i3 > 6 && i3 ≤ 72 && hd p3 == 38 then some (.error ())
          else fortranLine fuel p3 i3 blanklabel

/-- The loop over the lines, src/detector.c:483-541: true for free format. -/
def fortranLoop : Nat → Bytes → Option Bool
  | 0, _ => none
  | fuel + 1, p =>
    match p with
    | [] => some false
    | c :: p' =>
      if isBlank c || isdigit c then
        (fortranLine ((c :: p').length + 1) (c :: p') (if c == 9 then 5 else 1) (isBlank c)).bind fun r =>
          match r with
          | .error _ => some true
          | .ok q => fortranLoop fuel (q.dropWhile isNl)
      else if c != 67 && c != 99 && c != 42 && c != 33 then some true
      else fortranLoop fuel (((c :: p').dropWhile notNl).dropWhile isNl)

/-- `disambiguate_fortran`, src/detector.c:473-544. -/
def fortran (i : Input) : Option (Option String) :=
  (fortranLoop (i.text.length + 1) i.text).map fun free =>
    if free then some "fortranfree" else some "fortranfixed"

/-- An `#include` line of `disambiguate_h`, src/detector.c:582-611: does it name a C++
header? -/
def hInclude (st : Stack) (line : Bytes) : Option Bool :=
  if hd line == 35 then
    let p := (line.drop 1).dropWhile isBlank
    (if starts p "include" then (rd p 7).map isBlank else some false).bind fun incl =>
    if incl then
      let p := (p.drop 8).dropWhile isBlank
      if hd p == 60 || hd p == 34 then
        let q := p.drop 1
        let name := q.takeWhile fun c => c != 62 && c != 34
        let upto := line.take (line.length - q.length + name.length)
        (copyBuf st name).bind fun buf =>
          if isCppHeader buf then some true
          else
            (copyBuf st (upto.reverse.takeWhile fun c => c != 46).reverse).bind fun e =>
              some (decide (fromExt e = some (.lang "cpp")))
      else some false
    else some false
  else some false

/-- The keyword loop of `disambiguate_h`, src/detector.c:613-631. `prev` is the byte before
`p`; at the start of the line that is the byte before the array `line`, because the
test `p != bof` compares with the start of the contents. -/
def hWords (st : Stack) : Nat → Option Byte → Bytes → Option Bool
  | 0, _, _ => none
  | fuel + 1, prev, p =>
    match p with
    | [] => some false
    | c :: p' =>
      if islower c then
        prev.bind fun pr =>
          if !isalnum pr && pr != 95 then
            let word := (c :: p').takeWhile islower
            let rest := (c :: p').dropWhile islower
            if !isalnum (hd rest) && hd rest != 95 then
              (copyBuf st word).bind fun buf =>
                if buf == bs "class" || buf == bs "namespace" || buf == bs "template" ||
                    buf == bs "typename" then some true
                else hWords st fuel (some (hd rest)) (rest.drop 1)
            else hWords st fuel (some (hd rest)) (rest.drop 1)
          else hWords st fuel (some c) p'
      else hWords st fuel (some c) p'

/-- `disambiguate_h`, src/detector.c:546-641. For a file with extension "h" the name is
copied into `char path[length]` with a terminator behind it. -/
def h (st : Stack) (i : Input) : Option (Option String) :=
  (if i.ext = bs "h" then
      if st.pad then
        some ((i.filenames.getD []).any fun f => decide (f = i.filename.dropLast ++ bs "m"))
      else none
    else some false).bind fun objc =>
  if objc then some (some "objective_c")
  else
    (lineLoop st (fun (_ : Unit) line =>
        (hInclude st line).bind fun a =>
          if a then some (.error (some "cpp"))
          else (hWords st (line.length + 1) st.under line).bind fun w =>
            some (if w then .error (some "cpp") else .ok ()))
      (i.text.length + 1) i.text ()).map fun r =>
        match r with
        | .error e => e
        | .ok _ => some "c"

/-- `disambiguate_inc`, src/detector.c:677-690. -/
def inc (i : Input) : Option String :=
  match i.contents with
  | none => none
  | some c => if (strstr "?php" c).isSome then some "php" else none

/-- Scores of `disambiguate_m`. -/
structure MScores where
  mathematica : Nat := 0
  matlab : Nat := 0
  objectiveC : Nat := 0
  limbo : Nat := 0
  octave : Bool := false
  deriving DecidableEq, Repr

/-- The file context, src/detector.c:705-735: true if Objective C gets five points. The
state is `has_h_headers`. -/
def mContext : List Bytes → Bool → Bool
  | [], hasH => hasH
  | f :: rest, hasH =>
    let e (k : Nat) : Byte := (f[f.length - k]?).getD 0
    if f.length ≥ 4 then
      if e 4 == 46 && e 3 == 99 && ((e 2 == 112 && e 1 == 112) || (e 2 == 43 && e 1 == 43) ||
          (e 2 == 120 && e 1 == 120)) then false
      else mContext rest hasH
    else if f.length ≥ 3 then
      if e 3 == 46 && e 2 == 99 && e 1 == 99 then false else mContext rest hasH
    else if f.length ≥ 2 then
      if e 2 == 46 then
        if e 1 == 104 then mContext rest true
        else if e 1 == 99 || e 1 == 67 then false
        else mContext rest hasH
      else mContext rest hasH
    else mContext rest hasH

/-- Tell-tale lines, src/detector.c:750-788. -/
def mTelltale (line : Bytes) (s : MScores) : Option MScores :=
  let p := line.dropWhile isBlank
  let c := hd p
  if c == 37 then some { s with matlab := s.matlab + 1 }
  else if c == 35 && starts p "#import" then some { s with objectiveC := s.objectiveC + 1 }
  else if c == 35 then
    if isBlank (hd (p.dropWhile fun c => c == 35)) then
      some { s with limbo := s.limbo + 1, matlab := s.matlab + 1, octave := true }
    else some s
  else
    (if c == 47 then (rd p 1).map fun d => d == 47 || d == 42 else some false).bind fun comment =>
    if comment then some { s with objectiveC := s.objectiveC + 1 }
    else if c == 43 || c == 45 then some { s with objectiveC := s.objectiveC + 1 }
    else if c == 64 then
      if starts p "@implementation" || starts p "@interface" then
        some { s with objectiveC := s.objectiveC + 1 }
      else some s
    else if starts p "function" then
      if hd ((p.drop 8).dropWhile isBlank) == 40 then some { s with matlab := s.matlab + 1 }
      else some s
    else if starts p "include" then
      let q := p.drop 7
      if isBlank (hd q) then
        let q := q.dropWhile isBlank
        -- the loop looking for the closing quote stops at the opening one
        if hd q == 34 then
          let before := p.take (p.length - q.length)
          if (before[before.length - 2]?) == some 46 && (before[before.length - 1]?) == some 109 then
            some { s with limbo := s.limbo + 1 }
          else some s
        else some s
      else some s
    else some s

/-- Octave keywords, src/detector.c:790-808. `prev` is the byte before `p` in the line. -/
def mOctave (st : Stack) : Nat → Option Byte → Bytes → Bool → Option Bool
  | 0, _, _, _ => none
  | fuel + 1, prev, p, o =>
    match p with
    | [] => some o
    | c :: p' =>
      if islower c && (match prev with | some pr => !isalnum pr | none => false) then
        let f (b : Byte) : Bool := islower b || b == 95
        let word := (c :: p').takeWhile f
        let rest := (c :: p').dropWhile f
        if !isalnum (hd rest) then
          (copyBuf st word).bind fun buf =>
            let hit := buf == bs "end_try_catch" || buf == bs "end_unwind_protect" ||
              buf == bs "endfunction" || buf == bs "endwhile"
            mOctave st fuel (some (hd rest)) (rest.drop 1) (o || hit)
        else mOctave st fuel (some (hd rest)) (rest.drop 1) o
      else mOctave st fuel (some c) p' o

/-- Limbo declarations, src/detector.c:810-824: the number of points. -/
def mLimbo : Nat → Bytes → Nat → Option Nat
  | 0, _, _ => none
  | fuel + 1, p, n =>
    match p with
    | [] => some n
    | c :: p' =>
      if c == 58 && isBlank (hd p') then
        let q := p'.drop 1
        (if starts q "module" then (rd q 6).map fun d => !isalnum d else some false).bind fun a =>
        (if starts q "adt" then (rd q 3).map fun d => !isalnum d else some false).bind fun b =>
        (if starts q "fn" then (rd q 2).bind fun d =>
            if d == 32 then (rd q 3).map fun e => e == 40 else some (d == 40)
          else some false).bind fun f =>
        (if starts q "con" then (rd q 3).map isBlank else some false).bind fun e =>
        mLimbo fuel q (if a || b || f || e then n + 1 else n)
      else mLimbo fuel p' n

/-- Mathematica, src/detector.c:826-842: the number of points. -/
def mMath : Nat → Bytes → Nat → Option Nat
  | 0, _, _ => none
  | fuel + 1, p, n =>
    match p with
    | [] => some n
    | c :: p' =>
      let q := if c == 38 then p'.dropWhile isBlank else c :: p'
      let n := if c == 38 && (hd q == 44 || hd q == 41 || hd q == 93) then n + 1 else n
      match q with
      | [] => some n
      | d :: q' =>
        let n := if d == 40 && hd q' == 42 then n + 1 else n
        let n := if d == 47 && hd q' == 46 then n + 1 else n
        let n := if d == 95 && hd q' == 95 then n + 1 else n
        let n := if d == 64 && hd q' == 64 then n + 1 else n
        mMath fuel q' n

/-- One line, src/detector.c:750-842. -/
def mLine (st : Stack) (s : MScores) (line : Bytes) : Option MScores :=
  (mTelltale line s).bind fun s =>
  (mOctave st (line.length + 1) none line s.octave).bind fun o =>
  (mLimbo (line.length + 1) line s.limbo).bind fun l =>
  (mMath (line.length + 1) line s.mathematica).bind fun a =>
  some { s with octave := o, limbo := l, mathematica := a }

/-- `disambiguate_m`, src/detector.c:692-861. -/
def m (st : Stack) (i : Input) : Option (Option String) :=
  let s0 : MScores := { objectiveC := if mContext (i.filenames.getD []) false then 5 else 0 }
  (lineLoop st (fun s line => (mLine st s line).map .ok) (i.text.length + 1) i.text s0).map fun r =>
    match r with
    | .error e => e
    | .ok s =>
      if s.limbo > s.objectiveC && s.limbo > s.matlab && s.limbo > s.mathematica then some "limbo"
      else if s.objectiveC > s.matlab && s.objectiveC > s.mathematica then some "objective_c"
      else if s.mathematica > s.matlab then some "mathematica"
      else if s.octave then some "octave" else some "matlab"

/-- `disambiguate_mod`, src/detector.c:863-890. -/
def mod : Bytes → Option String
  | [] => none
  | b :: p =>
    if isBlank b || isNl b then mod p
    else if b == 40 then (if hd p == 42 then some "modula2" else none)
    else if b == 73 then (if starts (b :: p) "IMPLEMENTATION" then some "modula2" else none)
    else if b == 77 then (if starts (b :: p) "MODULE" then some "modula2" else none)
    else some "ampl"

/-- `mystrnlen`, src/detector.c:895-900, and the text given to the expression. -/
def firstBytes (n : Nat) (c : Bytes) : Bytes := (cstr c).take n

/-- `disambiguate_pp`, src/detector.c:902-929. -/
def pp (o : Oracles) (i : Input) : Option String :=
  match i.contents with
  | none => none
  | some c =>
    if o.puppetKeyword (firstBytes 10000 c) then some "puppet"
    else if o.puppetConstruct (firstBytes 10000 c) then some "puppet"
    else some "pascal"

/-- `disambiguate_pl`, src/detector.c:931-949. -/
def pl (o : Oracles) (i : Input) : Option String :=
  match i.contents with
  | none => none
  | some c =>
    if o.perlShebang (firstBytes 100 c) then some "perl"
    else if (strstr ":- " c).isSome || (strstr ":-\n" c).isSome then some "prolog"
    else some "perl"

/-- `disambiguate_pro`, src/detector.c:956-967. -/
def pro : Bytes → Option String
  | [] => some "idl_pvwave"
  | b :: p =>
    if starts (b :: p) "SOURCES +=" || starts (b :: p) "SOURCES+=" || starts (b :: p) "CONFIG +=" ||
        starts (b :: p) "CONFIG+=" then some "make"
    else pro p

/-- The loop of `disambiguate_r`, src/detector.c:981-984: `contents < eof - len`. -/
def rLoop : Bytes → Option String
  | [] => some "r"
  | b :: p =>
    if (b :: p).length ≤ 5 then some "r"
    else if startsCase (b :: p) "rebol" then some "rebol" else rLoop p

/-- `disambiguate_r`, src/detector.c:969-987. -/
def r (i : Input) : Option String :=
  match i.contents with
  | none => some "r"
  | some c => rLoop c

/-- The loop of `disambiguate_rs`, src/detector.c:1009-1013. -/
def rsLoop : Bytes → Option String
  | [] => some "rust"
  | b :: p =>
    if (b :: p).length ≤ 16 then some "rust"
    else if starts (b :: p) "\n#pragma version" then none else rsLoop p

/-- `disambiguate_rs`, src/detector.c:989-1016. -/
def rs (i : Input) : Option String :=
  match i.contents with
  | none => some "rust"
  | some c => if startsCase c "#pragma version" then none else rsLoop c

/-- One line of `disambiguate_st`, src/detector.c:1038-1049: the three flags, or the
decision for Smalltalk. -/
def stLine : Nat → Bytes → Bool × Bool × Bool → Option (Except Unit (Bool × Bool × Bool))
  | 0, _, _ => none
  | fuel + 1, p, (a, s, e) =>
    match p with
    | [] => some (.ok (a, s, e))
    | c :: p' =>
      if c == 58 then
        let q := p'.dropWhile isBlank
        let a' := a || hd q == 61
        let s' := s || hd q == 91
        if a' && s' && e then some (.error ())
        else stLine fuel (q.drop 1) (a', s', e)
      else
        let e' := e || (c == 93 && hd p' == 46)
        if a && s && e' then some (.error ())
        else stLine fuel p' (a, s, e')

/-- `disambiguate_st`, src/detector.c:1018-1058. -/
def smalltalk (st : Stack) (i : Input) : Option (Option String) :=
  (lineLoop st (fun s line => (stLine (line.length + 1) line s).map fun r =>
      match r with
      | .error _ => .error (some "smalltalk")
      | .ok s' => .ok s') (i.text.length + 1) i.text (false, false, false)).map fun r =>
    match r with
    | .error e => e
    | .ok _ => none

/-! ### Emacs mode lines -/

/-- The contents of the array `char line[81]` after the loop of src/detector.c:146-157,
initially all zero. Line 150 stores `length` bytes and line 151 a terminator; what was
there before remains behind it. -/
def setLine (st : Stack) (mem raw : Bytes) : Option Bytes :=
  if raw.length ≤ 80 ∨ st.pad then
    let s := cstr (raw.take 81)
    let new := s ++ List.replicate ((raw.take 81).length - s.length) 0 ++ [0]
    some (new ++ mem.drop new.length)
  else none

def firstLine (st : Stack) : Nat → Bytes → Bytes → Option Bytes
  | 0, _, _ => none
  | fuel + 1, p, mem =>
    if p = [] then some mem
    else (setLine st mem (p.takeWhile notNl)).bind fun mem' =>
      if starts mem' "#!" then firstLine st fuel ((p.dropWhile notNl).dropWhile isNl) mem'
      else some mem'

/-- `while (!isspace(*pe) && *pe != ';' && pe != strstr(pe, "-*-")) pe++`,
src/detector.c:168: the number of steps. The loop does not stop at the terminating
NUL; at the end of the array it is out of bounds. -/
def modeEnd : Bytes → Option Nat
  | [] => none
  | c :: p =>
    if isspace c || c == 59 || starts (c :: p) "-*-" then some 0
    else (modeEnd p).map (· + 1)

/-- The language a mode line names, src/detector.c:173-197 (`.error`: return it at once). -/
def fromMode (word : Bytes) : Except String (Option ExtVal) :=
  if (cstr word).map tolower = bs "c" then .error "c"
  else
    match fromName word with
    | some n => .ok (some (.lang n))
    | none =>
      match fromExt word with
      | some v => .ok (some v)
      | none =>
        match fromName (word.map tolower) with
        | some n => .ok (some (.lang n))
        | none => .ok (fromExt (word.map tolower))

/-- Detection by mode line, src/detector.c:141-199. -/
def modeline (st : Stack) (i : Input) : Option (Except String (Option ExtVal)) :=
  (firstLine st (i.text.length + 1) i.text (List.replicate 81 0)).bind fun mem =>
    match strstr "-*-" mem with
    | none => some (.ok none)
    | some p =>
      let p := (p.drop 3).dropWhile isBlank
      let p := if startsCase p "mode" then (p.drop 4).dropWhile (fun c => isBlank c || c == 58) else p
      (modeEnd p).map fun n => fromMode (p.take n)

/-! ### libmagic -/

/-- Steps of `p` to the left, src/detector.c:58-63, in the string `line`; `p` is an index,
and reading `line[-1]` is out of bounds. Returns `p` and `pe`. -/
def magicBack (line : Bytes) : Nat → Nat → Option (Nat × Nat)
  | 0, _ => none
  | fuel + 1, p =>
    if p = 0 then none                                   -- `p--` leads before the line
    else
      let pe := p - 1
      -- `while (*p == ' ') p--`
      let back := (line.take (pe + 1)).reverse.takeWhile (fun c => c == 32)
      if back.length > pe then none                      -- only blanks before: reads `line[-1]`
      else
        let p1 := pe - back.length
        -- `while (p != line && isalnum(*(p - 1))) p--`
        let p2 := p1 - ((line.take p1).reverse.takeWhile isalnum).length
        let p3 := if p2 ≠ 0 ∧ (line[p2 - 1]?) = some 45 then p2 - 1 else p2
        if (line[p3]?) = some 45 then magicBack line fuel p3 else some (p3, pe)

/-- `magic_parse`, src/detector.c:32-72. -/
def magicParse (magic : Bytes) : Option (Option String) :=
  let line := magic.map tolower
  let first : Option String :=
    if starts line "script text" then
      match strstr "for " line with
      | some p => fromName ((p.drop 4).takeWhile isalnum)
      | none => none
    else none
  match first with
  | some n => some (some n)
  | none =>
    match strstr "script" line with
    | some p =>
      (magicBack line (line.length + 1) (line.length - p.length)).map fun (a, e) =>
        fromName ((line.drop a).take (e - a))
    | none => some (if (strstr "xml" line).isSome then some "xml" else none)

/-- `detect_language_magic`, src/detector.c:76-116 (without the failures of libmagic, which
end the process). -/
def detectMagic (o : Oracles) (i : Input) : Option (Option String) :=
  match i.diskpath with
  | some d => magicParse (cstr ((o.magicFile d).take 79))
  | none =>
    match i.contents with
    | none => some none
    | some c => magicParse (cstr ((o.magicBuffer (cstr c)).take 79))

/-! ### The whole detection -/

/-- Detection by extension, src/detector.c:125-138. -/
def byExt (ext : Bytes) : Option ExtVal :=
  match fromExt ext with
  | some v => some v
  | none => fromExt (ext.map tolower)

/-- Everything before disambiguation, src/detector.c:120-212. -/
def candidate (o : Oracles) (st : Stack) (i : Input) : Option (Except String (Option ExtVal)) :=
  match byExt i.ext with
  | some v => some (.ok (some v))
  | none =>
    (modeline st i).bind fun r =>
      match r with
      | .error l => some (.error l)
      | .ok (some v) => some (.ok (some v))
      | .ok none =>
        match fromFilename i.filename with
        | some n => some (.ok (some (.lang n)))
        | none => (detectMagic o i).map fun r => .ok (r.map .lang)

/-- The input for the undecorated file of `disambiguate_in`, src/detector.c:665-670;
`before` is the byte before the path (see `splitPath`). -/
def undecorated (before : Byte) (i : Input) (c path : Bytes) : Input :=
  { filepath := path, parts := splitPath before path, diskpath := i.diskpath,
    contents := some (cstr c), filenames := i.filenames }

/-- The functions of `src/hash/disambiguatefuncs.gperf`; an id without a function would be
returned as it is. `rec` is the
recursive call of `disambiguate_in`. -/
def disambiguate (o : Oracles) (st : Stack) (before : Byte)
    (rec : Input → Option (Option String)) (id : String) (i : Input) : Option (Option String) :=
  match id with
  | "aspx" => aspx st i.text
  | "asx" => some (asx i.text)
  | "b" => b st i
  | "basic" => basic st i
  | "cs" => some (cs i)
  | "dat" => some (dat i.text)
  | "def" => some (deff i.text)
  | "fortran" => fortran i
  | "fs" => fs i
  | "h" => h st i
  | "in" =>
    -- `disambiguate_in`, src/detector.c:643-675
    let len := i.filepath.length
    -- `strstr(p, ".") <= pe`, a null pointer is below; `pe` before the string is undefined
    let dot := (i.filepath.takeWhile fun c => c != 46).length
    if len < 3 then none
    else if dot = len ∨ dot ≤ len - 3 then
      if st.pad then
        match i.contents with
        | none => some none
        | some c => rec (undecorated before i c (i.filepath.take (len - 3)))
      else none
    else some none
  | "inc" => some (inc i)
  | "m" => m st i
  | "mod" => some (mod i.text)
  | "pl" => some (pl o i)
  | "pp" => some (pp o i)
  | "pro" => some (pro i.text)
  | "r" => some (r i)
  | "rs" => some (rs i)
  | "st" => smalltalk st i
  | id => some (some ("\x02" ++ id))

/-- `ohcount_detect_language`, src/detector.c:120-225. The first argument bounds the depth of
the recursion through `disambiguate_in`. -/
def detectN (o : Oracles) (st : Stack) (before : Byte) : Nat → Input → Option (Option String)
  | 0, _ => none
  | n + 1, i =>
    (candidate o st i).bind fun r =>
      match r with
      | .error l => some (some l)
      | .ok none => some none
      | .ok (some (.lang l)) => some (some l)
      | .ok (some .binary) => some none
      | .ok (some (.ambiguous id)) => disambiguate o st before (detectN o st before n) id i

/-- `ohcount_detect_language`. The path loses three bytes in every recursion. -/
def detect (o : Oracles) (st : Stack) (before : Byte) (i : Input) : Option (Option String) :=
  detectN o st before (i.filepath.length + 1) i

/-- `ohcount_is_binary_filename`, src/detector.c:1060-1077. The lower-case copy goes into
`char lowerext[length]` with the terminator behind it. -/
def isBinaryFilename (st : Stack) (name : Bytes) : Option Bool :=
  let e := (name.reverse.takeWhile fun c => c != 46).reverse
  if e.length < name.length then
    match fromExt e with
    | some v => some (decide (v = .binary))
    | none =>
      if st.pad then
        match fromExt (e.map tolower) with
        | some v => some (decide (v = .binary))
        | none => some false
      else none
  else some false

end Ohcount.Detector
