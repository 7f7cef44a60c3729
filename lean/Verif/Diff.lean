/-
Model of `src/diff.c`: the in-memory line diff (`ohcount_calc_diff` for texts of
at most 100000 bytes).

C arrays are lists; an access outside of an array, and a loop that does not end
within the stated number of rounds, make the result `none`.  Fresh memory has
arbitrary content (the `junk` parameters).

Simplifications:
* `sfile[j] = file[j] + pref` is modelled by cutting the array into the part before
  the region, the region of `slen[j]` lines and the tail behind it.  `sort`, whose
  array accesses all lie in the region `1..n`, gets the region only; positions are
  counted from 0 there.
* `member` and `class` are overlaid on `file[1]` and `file[0]` in the C code
  (lines 685, 689).  Here they are separate arrays; `DiffWords.lean` has them in the
  same memory, with the same result (C91).
* `int` and `long` do not overflow.
* The external `diff` program used for larger texts is a parameter (its output).
-/
import Verif.SourceFile

namespace Ohcount.Diff

/-! ### Lines and hashing -/

/-- `strtok(buf, "\n")` called until it returns NULL: the maximal pieces without
newline, empty ones are skipped.  `cur` is the current piece, reversed. -/
def strtokAux (cur : Bytes) : Bytes → List Bytes
  | [] => if cur.isEmpty then [] else [cur.reverse]
  | b :: bs =>
    if b = 10 then
      if cur.isEmpty then strtokAux [] bs else cur.reverse :: strtokAux [] bs
    else strtokAux (b :: cur) bs

/-- The part of a buffer seen through `strlen`. -/
def cstr (buf : Bytes) : Bytes := buf.takeWhile (fun b => b != 0)

/-- The tokens of `prepare`, src/diff.c:315-333. -/
def tokens (buf : Bytes) : List Bytes := strtokAux [] (cstr buf)

/-- Value of a (signed) `char`. -/
def schar (b : Byte) : Int := if b.toNat < 128 then b.toNat else (b.toNat : Int) - 256

/-- `low(x)`, src/diff.c:283: `x & 0xffff`. -/
def low (x : Int) : Int := x % 65536
/-- `high(x)`, src/diff.c:284: `x >> 16`. -/
def high (x : Int) : Int := x / 65536
/-- Conversion to `short`. -/
def toShort (x : Int) : Int := (x + 32768) % 65536 - 32768

/-- The loop of `hash`, src/diff.c:302-305. -/
def hashLoop (sum : Int) (shift : Nat) : Bytes → Int
  | [] => sum
  | b :: bs => hashLoop (sum + schar b * 2 ^ (shift % 16)) (shift % 16 + 7) bs

/-- `hash`, src/diff.c:292-308. -/
def lineHash (line : Bytes) : Int :=
  let sum := hashLoop 1 0 line
  let sum := low sum + high sum
  toShort (low sum) + toShort (high sum)

/-- The values `file[i][1..len[i]]` computed by `prepare`, src/diff.c:315-333. -/
def prepare (buf : Bytes) : List Int := (tokens buf).map lineHash

/-- The copy made by `prepare`, src/diff.c:318-324: `char bufcpy[strlen(buf)]` (of arbitrary
content), `strncpy(bufcpy, buf, strlen(buf))` and `bufcpy[strlen(buf)] = 0`.  `none` if a
store is outside of the array.  (`diffValues` below does not depend on it: it takes
the tokens of the text itself.) -/
def copyText (junk : Byte) (buf : Bytes) : Option Bytes :=
  (storeAll (List.replicate (cstr buf).length junk) 0 (strncpyBytes buf (cstr buf).length)).bind
    fun m => store m (cstr buf).length 0

/-! ### prune -/

/-- Length of the common prefix: the loop src/diff.c:476-478. -/
def prefLen : List Int → List Int → Nat
  | a :: as, b :: bs => if a = b then prefLen as bs + 1 else 0
  | _, _ => 0

/-- `struct line`, src/diff.c:265-268. -/
structure Line where
  serial : Nat
  value : Int
  deriving DecidableEq, Repr

/-- The lines `sfile[j][1..slen[j]]` after `prune`, src/diff.c:482-487: serial numbers
from 1. -/
def number (k : Nat) : List Int → List Line
  | [] => []
  | v :: vs => ⟨k, v⟩ :: number (k + 1) vs

/-! ### sort -/

/-- `aim->value > ai->value || aim->value == ai->value && aim->serial > ai->serial`,
src/diff.c:446-448. -/
def after (aim ai : Line) : Bool :=
  aim.value > ai.value || (aim.value == ai.value && aim.serial > ai.serial)

/-- The `do ... while` loop of `sort`, src/diff.c:445-456; `aim = ai + m`. -/
def sift (m : Nat) : Nat → List Line → Nat → Option (List Line)
  | 0, _, _ => none
  | fuel + 1, as, ai =>
    match as[ai]?, as[ai + m]? with
    | some x, some y =>
      if after y x then some as
      else
        let as' := (as.set ai y).set (ai + m) x
        if m ≤ ai then sift m fuel as' (ai - m) else some as'
    | _, _ => none

/-- The loop over `j`, src/diff.c:442-457; `cnt` rounds are left. -/
def sortPass (m : Nat) : Nat → Nat → List Line → Option (List Line)
  | 0, _, as => some as
  | cnt + 1, j, as => (sift m (j + 1) as j).bind (sortPass m cnt (j + 1))

/-- `for (i = 1; i <= n; i *= 2) m = 2*i - 1;`, src/diff.c:437-439. -/
def startGap (n : Nat) : Nat → Nat → Nat → Nat
  | 0, _, m => m
  | fuel + 1, i, m => if i ≤ n then startGap n fuel (i * 2) (2 * i - 1) else m

/-- The loop over `m`, src/diff.c:440-458. -/
def sortLoop : Nat → Nat → List Line → Option (List Line)
  | 0, _, _ => none
  | fuel + 1, m, as =>
    if m = 0 then some as
    else (sortPass m (as.length - m) 0 as).bind (sortLoop fuel (m / 2))

/-- `sort`, src/diff.c:431-459. -/
def sort (as : List Line) : Option (List Line) :=
  let m := startGap as.length (as.length + 1) 1 0
  sortLoop (m + 1) (m / 2) as

/-! ### equiv and unsort -/

/-- First two loops of `equiv`, src/diff.c:493-503: the value of each line of `as` becomes
the (1-based) position of the first line of `bs` with the same value, or 0. -/
def equiv1 (bs : List Line) : Nat → Nat → Nat → List Line → Option (List Line)
  | 0, _, _, _ => none
  | fuel + 1, i, j, as =>
    if i < as.length then
      if j < bs.length then
        match as[i]?, bs[j]? with
        | some a, some b =>
          if a.value < b.value then equiv1 bs fuel (i + 1) j (as.set i ⟨a.serial, 0⟩)
          else if a.value = b.value then
            equiv1 bs fuel (i + 1) j (as.set i ⟨a.serial, (j + 1 : Nat)⟩)
          else equiv1 bs fuel i (j + 1) as
        | _, _ => none
      else
        match as[i]? with
        | some a => equiv1 bs fuel (i + 1) j (as.set i ⟨a.serial, 0⟩)
        | none => none
    else some as

/-- Store into an array, `none` when out of bounds. -/
def put {α : Type} (l : List α) (i : Nat) (v : α) : Option (List α) :=
  if i < l.length then some (l.set i v) else none

/-- The inner loop `while (b[j+1].value == b[j].value) {...}`, src/diff.c:508-511.
`mem` holds `b[1], b[2], ...` (so `b[j]` is `mem[j-1]`).  Returns `j` and `c`. -/
def equivInner (mem : List Line) : Nat → Nat → List Int → Option (Nat × List Int)
  | 0, _, _ => none
  | fuel + 1, j, c =>
    match mem[j]?, mem[j - 1]? with
    | some nx, some cur =>
      if nx.value = cur.value then
        (put c (j + 1) (nx.serial : Int)).bind (equivInner mem fuel (j + 1))
      else some (j, c)
    | _, _ => none

/-- The loop `while (++j <= m) {...}` and the final store, src/diff.c:505-513. -/
def equivOuter (mem : List Line) (m : Nat) : Nat → Nat → List Int → Option (List Int)
  | 0, _, _ => none
  | fuel + 1, j, c =>
    if j + 1 ≤ m then
      match mem[j]? with
      | some b =>
        (put c (j + 1) (-(b.serial : Int))).bind fun c1 =>
          (equivInner mem (mem.length + 1) (j + 1) c1).bind fun (j', c2) =>
            equivOuter mem m fuel j' c2
      | none => none
    else put c (j + 1) (-1)

/-- `equiv`, src/diff.c:490-514.  `bs` is the region, `tail` the memory behind it (its
first element gets the value 0 as a sentinel), `c` the uninitialised result array. -/
def equiv (as bs tail : List Line) (c : List Int) : Option (List Line × List Int) :=
  (equiv1 bs (as.length + bs.length + 1) 0 0 as).bind fun as' =>
    match tail with
    | [] => none
    | t :: tail' =>
      (equivOuter (bs ++ ⟨t.serial, 0⟩ :: tail') bs.length (bs.length + 1) 0 c).bind fun c' =>
        some (as', c')

/-- The first loop of `unsort`, src/diff.c:466-467: `a[f[i].serial] = f[i].value`. -/
def unsort : List Line → List Int → Option (List Int)
  | [], a => some a
  | l :: ls, a => (put a l.serial l.value).bind (unsort ls)

/-! ### stone -/

/-- `struct cand`, src/diff.c:259-263. -/
structure Cand where
  x : Nat
  y : Int
  pred : Nat
  deriving DecidableEq, Repr

/-- `clist[c[l]].y`. -/
def candY (cl : List Cand) (c : List Nat) (l : Nat) : Option Int :=
  (c[l]?).bind fun p => (cl[p]?).map Cand.y

/-- The loop of `search`, src/diff.c:535-544. -/
def searchLoop (cl : List Cand) (c : List Nat) (y : Int) : Nat → Nat → Nat → Option Nat
  | 0, _, _ => none
  | fuel + 1, i, j =>
    let l := (i + j) / 2
    if l > i then
      match candY cl c l with
      | some t =>
        if t > y then searchLoop cl c y fuel i l
        else if t < y then searchLoop cl c y fuel l j
        else some l
      | none => none
    else some (l + 1)

/-- `search`, src/diff.c:527-545. -/
def search (cl : List Cand) (c : List Nat) (k : Nat) (y : Int) : Option Nat :=
  match candY cl c k with
  | some t => if t < y then some (k + 1) else searchLoop cl c y (k + 2) 0 (k + 1)
  | none => none

/-- The state of `stone`: klist, candidates, k. -/
structure Stone where
  c : List Nat
  cl : List Cand
  k : Nat
  deriving DecidableEq, Repr

/-- `newcand`, src/diff.c:516-525, followed by the store `c[l] = ...`. -/
def install (s : Stone) (l i : Nat) (y : Int) (pred : Nat) : Option Stone :=
  (put s.c l s.cl.length).bind fun c' => some ⟨c', s.cl ++ [⟨i, y, pred⟩], s.k⟩

/-- The body of the `do` loop of `stone` for one `y`, src/diff.c:561-577: the new state
with `oldl` and `oldc`, and whether the loop was left by `break`. -/
def stoneStep (i : Nat) (s : Stone) (oldl oldc : Nat) (y : Int) :
    Option (Stone × Nat × Nat × Bool) :=
  match s.cl[oldc]? with
  | none => none
  | some oc =>
    if y ≤ oc.y then some (s, oldl, oldc, false)
    else
      (search s.cl s.c s.k y).bind fun l =>
        (if l ≠ oldl + 1 then s.c[l - 1]? else some oldc).bind fun oldc =>
          if l ≤ s.k then
            (candY s.cl s.c l).bind fun t =>
              if t ≤ y then some (s, oldl, oldc, false)
              else
                (s.c[l]?).bind fun tc =>
                  (install s l i y oldc).bind fun s' => some (s', l, tc, false)
          else
            (install s l i y oldc).bind fun s' =>
              some ({ s' with k := s'.k + 1 }, oldl, oldc, true)

/-- The `do` loop of `stone`, src/diff.c:560-578. -/
def stoneRow (b : List Int) (i : Nat) : Nat → Stone → Nat → Nat → Nat → Int → Option Stone
  | 0, _, _, _, _, _ => none
  | fuel + 1, s, j, oldl, oldc, y =>
    (stoneStep i s oldl oldc y).bind fun (s', oldl', oldc', brk) =>
      if brk then some s'
      else
        match b[j + 1]? with
        | none => none
        | some y' => if y' > 0 then stoneRow b i fuel s' (j + 1) oldl' oldc' y' else some s'

/-- The loop over `i` of `stone`, src/diff.c:554-579; `a` holds `a[1], a[2], ...`. -/
def stoneLoop (b : List Int) : Nat → List Int → Stone → Option Stone
  | _, [], s => some s
  | i, j :: as, s =>
    if j = 0 then stoneLoop b (i + 1) as s
    else
      match b[j.toNat]?, s.c[0]? with
      | some y, some c0 =>
        (stoneRow b i (b.length + 1) s j.toNat 0 c0 (-y)).bind (stoneLoop b (i + 1) as)
      | _, _ => none

/-- `stone`, src/diff.c:547-583. -/
def stone (a : List Int) (b : List Int) (c : List Nat) : Option Stone :=
  (put c 0 0).bind fun c' => stoneLoop b 1 a ⟨c', [⟨0, 0, 0⟩], 0⟩

/-! ### unravel and output -/

/-- First loop of `unravel`, src/diff.c:589-596, for `i = 0..len0`. -/
def initJ (len0 len1 pref suff : Nat) : List Int :=
  (List.range (len0 + 1)).map fun i =>
    if i ≤ pref then (i : Int)
    else if i > len0 - suff then (i : Int) + len1 - len0
    else 0

/-- Second loop of `unravel`, src/diff.c:597-598. -/
def unravelLoop (cl : List Cand) (pref : Nat) : Nat → Nat → List Int → Option (List Int)
  | 0, _, _ => none
  | fuel + 1, p, J =>
    match cl[p]? with
    | none => none
    | some q =>
      if q.y ≠ 0 then
        (put J (q.x + pref) (q.y + pref)).bind (unravelLoop cl pref fuel q.pred)
      else some J

/-- `change`, src/diff.c:347-364, on the two counters. -/
def change (len0 len1 : Nat) (a b c d : Int) (added removed : Int) : Int × Int :=
  if a > b ∧ c > d then (added, removed)
  else
    let a := if a ≤ 1 then 1 else a
    let b := if b > len0 then (len0 : Int) else b
    let removed := if a ≤ b then removed + (b - a + 1) else removed
    let c := if c ≤ 1 then 1 else c
    let d := if d > len1 then (len1 : Int) else d
    let added := if c ≤ d then added + (d - c + 1) else added
    (added, removed)

/-- `while (i0 <= m && J[i0] == J[i0-1]+1) i0++;`, src/diff.c:608-609. -/
def skipMatched (m : Nat) (J : List Int) : Nat → Nat → Option Nat
  | 0, _ => none
  | fuel + 1, i0 =>
    if i0 ≤ m then
      match J[i0]?, J[i0 - 1]? with
      | some u, some v => if u = v + 1 then skipMatched m J fuel (i0 + 1) else some i0
      | _, _ => none
    else some i0

/-- `while (i1 < m && J[i1+1] == 0) i1++;`, src/diff.c:612-613. -/
def skipUnmatched (m : Nat) (J : List Int) : Nat → Nat → Option Nat
  | 0, _ => none
  | fuel + 1, i1 =>
    if i1 < m then
      match J[i1 + 1]? with
      | some u => if u = 0 then skipUnmatched m J fuel (i1 + 1) else some i1
      | none => none
    else some i1

/-- The `for` loop of `output`, src/diff.c:607-617. -/
def outputLoop (len0 len1 : Nat) :
    Nat → Nat → List Int → Int → Int → Option (Int × Int)
  | 0, _, _, _, _ => none
  | fuel + 1, i0, J, added, removed =>
    if i0 ≤ len0 then
      (skipMatched len0 J (len0 + 2) i0).bind fun i0 =>
        (J[i0 - 1]?).bind fun v =>
          let j0 := v + 1
          (skipUnmatched len0 J (len0 + 2) (i0 - 1)).bind fun i1 =>
            (J[i1 + 1]?).bind fun w =>
              let j1 := w - 1
              (put J i1 j1).bind fun J' =>
                let (added', removed') := change len0 len1 i0 i1 j0 j1 added removed
                outputLoop len0 len1 fuel (i1 + 1) J' added' removed'
    else some (added, removed)

/-- `output`, src/diff.c:601-620. -/
def output (len0 len1 : Nat) (J : List Int) : Option (Int × Int) :=
  (put J 0 0).bind fun J1 =>
    (put J1 (len0 + 1) ((len1 : Int) + 1)).bind fun J2 =>
      (outputLoop len0 len1 (2 * len0 + 3) 1 J2 0 0).bind fun (added, removed) =>
        if len0 = 0 then some (change len0 len1 1 0 1 len1 added removed)
        else some (added, removed)

/-- Fresh memory. -/
structure Junk where
  line : Nat → Line
  int : Int
  nat : Nat

/-- `ohcount_calc_diff` after `prepare`, src/diff.c:681-707. -/
def diffValues (junk : Junk) (v0 v1 : List Int) : Option (Int × Int) :=
  let pref := prefLen v0 v1
  let suff := prefLen (v0.drop pref).reverse (v1.drop pref).reverse
  let slen0 := v0.length - pref - suff
  let slen1 := v1.length - pref - suff
  let s0 := number 1 ((v0.drop pref).take slen0)
  let s1 := number 1 ((v1.drop pref).take slen1)
  -- what follows the region in `file[1]`: the suffix (whose serial numbers were never
  -- set) and two unused elements
  let tail := ((v1.drop (pref + slen1)).mapIdx fun i v => (⟨(junk.line i).serial, v⟩ : Line)) ++
    [junk.line v1.length, junk.line (v1.length + 1)]
  (sort s0).bind fun s0 =>
    (sort s1).bind fun s1 =>
      (equiv s0 s1 tail (List.replicate (2 * (v1.length + 3)) junk.int)).bind fun (s0, member) =>
        (unsort s0 (List.replicate (slen0 + 1) junk.int)).bind fun cls =>
          (stone (cls.drop 1) (member.take (slen1 + 2))
              (List.replicate (slen0 + 2) junk.nat)).bind fun s =>
            (s.c[s.k]?).bind fun p =>
              (unravelLoop s.cl pref (s.cl.length + 1) p
                  (initJ v0.length v1.length pref suff ++ [junk.int])).bind fun J =>
                output v0.length v1.length J

/-- `ohcount_calc_diff`, src/diff.c:672-708, for texts of at most 100000 bytes
(`USE_DISK_IF_LARGER`): the numbers of lines added and removed. -/
def calcDiff (junk : Junk) (old new : Bytes) : Option (Int × Int) :=
  diffValues junk (prepare old) (prepare new)

/-! ### Large texts -/

/-- The strings returned by repeated `fgets(line, size, f)`, src/diff.c:655: at most
`size - 1` bytes, up to and including a newline.  `room` is the room left in the
current piece, `cur` the piece so far, reversed. -/
def fgetsAux (size : Nat) : Nat → Bytes → Bytes → List Bytes
  | _, cur, [] => if cur.isEmpty then [] else [cur.reverse]
  | room, cur, b :: bs =>
    if b = 10 then (b :: cur).reverse :: fgetsAux size (size - 1) [] bs
    else if room ≤ 1 then (b :: cur).reverse :: fgetsAux size (size - 1) [] bs
    else fgetsAux size (room - 1) (b :: cur) bs

/-- The counting loop of `ohcount_calc_diff_with_disk`, src/diff.c:654-660, over the
output of the external program. -/
def diskCounts (out : Bytes) : Int × Int :=
  let chunks := fgetsAux 10000 9999 [] out
  ((chunks.countP fun l => l.head? == some 62 : Nat), (chunks.countP fun l => l.head? == some 60 : Nat))

/-- `ohcount_calc_diff`, src/diff.c:672-708.  `ext` is the output of the external program
`diff --normal` on the two texts, `none` if `popen` fails (then `pclose(NULL)` is called). -/
def ohcountCalcDiff (ext : Bytes → Bytes → Option Bytes) (junk : Junk) (old new : Bytes) :
    Option (Int × Int) :=
  if (cstr old).length > 100000 ∨ (cstr new).length > 100000 then
    (ext (cstr old) (cstr new)).map diskCounts
  else calcDiff junk old new

/-! ### Deltas of files -/

/-- The first parsed language of that name, or the blank one made with buffer size 0,
src/sourcefile.c:292-313. -/
def findLanguage (junk : Byte) (lang : String) : List ParsedLanguage → ParsedLanguage
  | [] => ParsedLanguage.new junk lang 0
  | pl :: rest => if lang = pl.name then pl else findLanguage junk lang rest

/-- `ohcount_sourcefile_calc_loc_delta`, src/sourcefile.c:288-324, on the parsed
languages of the two files. -/
def calcLocDelta (ext : Bytes → Bytes → Option Bytes) (junk : Junk) (jb : Byte)
    (fromPls : List ParsedLanguage) (lang : String) (toPls : List ParsedLanguage) :
    Option LocDelta :=
  let f := findLanguage jb lang fromPls
  let t := findLanguage jb lang toPls
  (ohcountCalcDiff ext junk f.code.mem t.code.mem).bind fun (ca, cr) =>
    (ohcountCalcDiff ext junk f.comments.mem t.comments.mem).bind fun (ma, mr) =>
      let fb : Int := f.blanksCount
      let tb : Int := t.blanksCount
      if fb > tb then some ⟨lang, ca, cr, ma, mr, 0, fb - tb⟩
      else some ⟨lang, ca, cr, ma, mr, tb - fb, 0⟩

/-- First loop of `ohcount_sourcefile_diff`, src/sourcefile.c:263-272. -/
def diffFrom (ext : Bytes → Bytes → Option Bytes) (junk : Junk) (jb : Byte)
    (fromPls toPls : List ParsedLanguage) :
    List ParsedLanguage → LocDeltaList → Option LocDeltaList
  | [], l => some l
  | pl :: rest, l =>
    (calcLocDelta ext junk jb fromPls pl.name toPls).bind fun d =>
      diffFrom ext junk jb fromPls toPls rest (l.addDelta d)

/-- Second loop of `ohcount_sourcefile_diff`, src/sourcefile.c:273-283. -/
def diffTo (ext : Bytes → Bytes → Option Bytes) (junk : Junk) (jb : Byte)
    (fromPls toPls : List ParsedLanguage) :
    List ParsedLanguage → LocDeltaList → Option LocDeltaList
  | [], l => some l
  | pl :: rest, l =>
    match l.getDelta pl.name with
    | some _ => diffTo ext junk jb fromPls toPls rest l
    | none =>
      (calcLocDelta ext junk jb fromPls pl.name toPls).bind fun d =>
        diffTo ext junk jb fromPls toPls rest (l.addDelta d)

/-- `ohcount_sourcefile_diff`, src/sourcefile.c:255-286. -/
def sourcefileDiff (ext : Bytes → Bytes → Option Bytes) (junk : Junk) (jb : Byte)
    (fromPls toPls : List ParsedLanguage) : Option LocDeltaList :=
  (diffFrom ext junk jb fromPls toPls fromPls []).bind (diffTo ext junk jb fromPls toPls toPls)

end Ohcount.Diff
