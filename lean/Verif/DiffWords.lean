import Verif.DiffOut
/-
`ohcount_calc_diff`, src/diff.c:672-708, in memory: the blocks that it allocates, the static variables in which it keeps them, and the
two arrays of lines as words, over which `member` and `class` are laid (src/diff.c:685, 689).  `Diff.lean` has separate arrays.

Read out of a block, out of bounds or from a block that is not allocated: no result.

Simplified:
* `member`, `class`, `klist`, `clist` and `J` are separate blocks once `stone` starts, so that `stone`, `unravel` and `output` are those of
  `Diff.lean`, on the contents of the blocks;
* the calls of `realloc` by `newcand` (src/diff.c:519) are one at the end of `stone`;
* `int` does not overflow, `malloc` does not fail.
-/

namespace Ohcount.DiffWords

open Ohcount.Diff

/-- An address. -/
abbrev Ptr := Nat

/-- What a block holds: words of the size of an `int` (lines of src/diff.c:265-268 are two words, `serial` and `value`), or the numbers of
candidates of `klist`, or candidates (src/diff.c:259-263). -/
inductive Blk where
  | words (w : List Int)
  | nats (l : List Nat)
  | cands (l : List Cand)

/-- The allocated blocks. -/
abbrev Heap := Ptr → Option Blk

def set (h : Heap) (p : Ptr) (b : Option Blk) : Heap := fun a => if a = p then b else h a

/-- How `malloc` works: where the next block lies, and what it contains. -/
structure Alloc where
  addr : Heap → Ptr
  int : Heap → Nat → Int
  nat : Heap → Nat → Nat

/-- Finitely many blocks are allocated. -/
def Finite (h : Heap) : Prop := ∃ used : List Ptr, ∀ a, h a ≠ none → a ∈ used

/-- A new block lies where none is. -/
def Alloc.Ok (al : Alloc) : Prop := ∀ h : Heap, Finite h → h (al.addr h) = none

/-- The variables of src/diff.c:270-280.  `sfile[i]` is `file[i] + off`. -/
structure St where
  h : Heap
  file0 : Ptr
  file1 : Ptr
  len0 : Nat
  len1 : Nat
  off0 : Nat
  off1 : Nat
  slen0 : Nat
  slen1 : Nat
  pref : Nat
  suff : Nat
  cls : Ptr
  member : Ptr
  klist : Ptr
  clist : Ptr
  clen : Nat
  J : Ptr

variable (al : Alloc)

/-- `malloc` of `n` words. -/
def malloc (n : Nat) (h : Heap) : Heap × Ptr :=
  (set h (al.addr h) (some (.words ((List.range n).map (al.int h)))), al.addr h)

/-- `realloc` of a block of words to `n` words: it may move, it keeps what fits, the rest is arbitrary. -/
def realloc (p : Ptr) (n : Nat) (h : Heap) : Option (Heap × Ptr) :=
  match h p with
  | some (.words w) =>
    let h := set h p none
    some (set h (al.addr h) (some (.words (w.take n ++ (List.range (n - w.length)).map (al.int h)))), al.addr h)
  | _ => none

def free (p : Ptr) (h : Heap) : Option Heap := (h p).map fun _ => set h p none

def load (h : Heap) (p : Ptr) : Option (List Int) :=
  match h p with
  | some (.words w) => some w
  | _ => none

/-! ### prepare -/

/-- The loop of `prepare`, src/diff.c:326-330: `j` lines have been read into the block at `p`. -/
def readLines : List Bytes → Nat → Ptr → Heap → Option (Heap × Ptr × Nat)
  | [], j, p, h => some (h, p, j)
  | l :: ls, j, p, h =>
    (realloc al p (2 * (j + 1 + 3)) h).bind fun (h, p) =>
      (load h p).bind fun w =>
        (put w (2 * (j + 1) + 1) (lineHash l)).bind fun w =>
          readLines ls (j + 1) p (set h p (some (.words w)))

/-- `prepare`, src/diff.c:315-333, after the copy (`copyText`): the heap, `file[i]` and `len[i]`. -/
def prepare (buf : Bytes) (h : Heap) : Option (Heap × Ptr × Nat) :=
  let (h, p) := malloc al (2 * 3) h
  readLines al (tokens buf) 0 p h

/-! ### prune -/

/-- The first loop of `prune`, src/diff.c:476-478. -/
def prefLoop (w0 w1 : List Int) (len0 len1 : Nat) : Nat → Nat → Option Nat
  | 0, _ => none
  | fuel + 1, pref =>
    if pref < len0 ∧ pref < len1 then
      match w0[2 * (pref + 1) + 1]?, w1[2 * (pref + 1) + 1]? with
      | some a, some b => if a = b then prefLoop w0 w1 len0 len1 fuel (pref + 1) else some pref
      | _, _ => none
    else some pref

/-- The second loop of `prune`, src/diff.c:479-481. -/
def suffLoop (w0 w1 : List Int) (len0 len1 pref : Nat) : Nat → Nat → Option Nat
  | 0, _ => none
  | fuel + 1, suff =>
    if suff < len0 - pref ∧ suff < len1 - pref then
      match w0[2 * (len0 - suff) + 1]?, w1[2 * (len1 - suff) + 1]? with
      | some a, some b => if a = b then suffLoop w0 w1 len0 len1 pref fuel (suff + 1) else some suff
      | _, _ => none
    else some suff

/-- The loop over `i` of `prune`, src/diff.c:485-486, with `cnt` rounds left. -/
def serials (off : Nat) : Nat → Nat → List Int → Option (List Int)
  | 0, _, w => some w
  | cnt + 1, i, w => (put w (2 * (off + i)) (i : Int)).bind (serials off cnt (i + 1))

/-- `prune`, src/diff.c:473-488. -/
def prune (s : St) : Option St :=
  (load s.h s.file0).bind fun w0 => (load s.h s.file1).bind fun w1 =>
    (prefLoop w0 w1 s.len0 s.len1 (s.len0 + 1) 0).bind fun pref =>
      (suffLoop w0 w1 s.len0 s.len1 pref (s.len0 + 1) 0).bind fun suff =>
        let s := { s with pref := pref, suff := suff }
        let s := { s with off0 := s.pref, slen0 := s.len0 - s.pref - s.suff }
        (serials s.off0 (s.slen0 + 1) 0 w0).bind fun w0 =>
          let s := { s with off1 := s.pref, slen1 := s.len1 - s.pref - s.suff }
          (serials s.off1 (s.slen1 + 1) 0 w1).bind fun w1 =>
            some { s with h := set (set s.h s.file0 (some (.words w0))) s.file1 (some (.words w1)) }

/-! ### sort -/

/-- The `do` loop of `sort`, src/diff.c:445-456; `a` is `off` lines into the block, `ai` is counted from `a`, `aim = ai + m`. -/
def sift (off m : Nat) : Nat → List Int → Nat → Option (List Int)
  | 0, _, _ => none
  | fuel + 1, w, ai =>
    match w[2 * (off + ai)]?, w[2 * (off + ai) + 1]?, w[2 * (off + (ai + m))]?, w[2 * (off + (ai + m)) + 1]? with
    | some s, some v, some s', some v' =>
      if v' > v ∨ (v' = v ∧ s' > s) then some w
      else
        let w := (w.set (2 * (off + ai)) s').set (2 * (off + ai) + 1) v'
        let w := (w.set (2 * (off + (ai + m))) s).set (2 * (off + (ai + m)) + 1) v
        if m < ai then sift off m fuel w (ai - m) else some w
    | _, _, _, _ => none

/-- The loop over `j`, src/diff.c:441-457; `cnt` rounds are left. -/
def sortPass (off m : Nat) : Nat → Nat → List Int → Option (List Int)
  | 0, _, w => some w
  | cnt + 1, j, w => (sift off m j w j).bind (sortPass off m cnt (j + 1))

/-- The loop over `m`, src/diff.c:440-458. -/
def sortLoop (off n : Nat) : Nat → Nat → List Int → Option (List Int)
  | 0, _, _ => none
  | fuel + 1, m, w =>
    if m = 0 then some w
    else (sortPass off m (n - m) 1 w).bind (sortLoop off n fuel (m / 2))

/-- `sort(a, n)`, src/diff.c:431-459. -/
def sort (off n : Nat) (w : List Int) : Option (List Int) :=
  let m := startGap n (n + 1) 1 0
  sortLoop off n (m + 1) (m / 2) w

/-! ### equiv and unsort -/

/-- The first two loops of `equiv`, src/diff.c:493-503: `a` is `off` lines into the block `w0` and has `n` lines, `b` is `off` lines into
`w1` and has `m` lines. -/
def equiv1 (off n m : Nat) (w1 : List Int) : Nat → Nat → Nat → List Int → Option (List Int)
  | 0, _, _, _ => none
  | fuel + 1, i, j, w0 =>
    if i ≤ n then
      if j ≤ m then
        match w0[2 * (off + i) + 1]?, w1[2 * (off + j) + 1]? with
        | some a, some b =>
          if a < b then equiv1 off n m w1 fuel (i + 1) j (w0.set (2 * (off + i) + 1) 0)
          else if a = b then equiv1 off n m w1 fuel (i + 1) j (w0.set (2 * (off + i) + 1) j)
          else equiv1 off n m w1 fuel i (j + 1) w0
        | _, _ => none
      else (put w0 (2 * (off + i) + 1) 0).bind (equiv1 off n m w1 fuel (i + 1) j)
    else some w0

/-- The inner loop of `equiv`, src/diff.c:508-511.  `b` is `off` lines into the block `w`, `c` is the block itself. -/
def equivInner (off : Nat) : Nat → Nat → List Int → Option (Nat × List Int)
  | 0, _, _ => none
  | fuel + 1, j, w =>
    match w[2 * (off + (j + 1)) + 1]?, w[2 * (off + j) + 1]? with
    | some nx, some cur =>
      if nx = cur then
        (w[2 * (off + (j + 1))]?).bind fun serial =>
          (put w (j + 1) serial).bind (equivInner off fuel (j + 1))
      else some (j, w)
    | _, _ => none

/-- The loop `while (++j <= m) {...}` and the last store of `equiv`, src/diff.c:506-513. -/
def equivOuter (off m : Nat) : Nat → Nat → List Int → Option (List Int)
  | 0, _, _ => none
  | fuel + 1, j, w =>
    if j + 1 ≤ m then
      (w[2 * (off + (j + 1))]?).bind fun serial =>
        (put w (j + 1) (-serial)).bind fun w =>
          (equivInner off (w.length + 1) (j + 1) w).bind fun (j, w) => equivOuter off m fuel j w
    else put w (j + 1) (-1)

/-- `equiv(sfile[0], slen[0], sfile[1], slen[1], member)`, src/diff.c:490-514, where `member` is `file[1]`. -/
def equiv (s : St) : Option St :=
  (load s.h s.file0).bind fun w0 => (load s.h s.member).bind fun w1 =>
    (equiv1 s.off0 s.slen0 s.slen1 w1 (s.slen0 + s.slen1 + 1) 1 1 w0).bind fun w0 =>
      (put w1 (2 * (s.off1 + (s.slen1 + 1)) + 1) 0).bind fun w1 =>
        (equivOuter s.off1 s.slen1 (s.slen1 + 1) 0 w1).bind fun w1 =>
          some { s with h := set (set s.h s.file0 (some (.words w0))) s.member (some (.words w1)) }

/-- The first loop of `unsort`, src/diff.c:466-467; `f` is `off` lines into the block `w`, `cnt` rounds are left. -/
def scatter (off : Nat) (w : List Int) : Nat → Nat → List Int → Option (List Int)
  | 0, _, a => some a
  | cnt + 1, i, a =>
    match w[2 * (off + i)]?, w[2 * (off + i) + 1]? with
    | some s, some v => if s < 0 then none else (put a s.toNat v).bind (scatter off w cnt (i + 1))
    | _, _ => none

/-- The second loop of `unsort`, src/diff.c:468-469; `cnt` rounds are left. -/
def copyBack (a : List Int) : Nat → Nat → List Int → Option (List Int)
  | 0, _, w => some w
  | cnt + 1, i, w => (a[i]?).bind fun v => (put w i v).bind (copyBack a cnt (i + 1))

/-- `unsort(sfile[0], slen[0], class)`, src/diff.c:461-471, where `class` is `file[0]`. -/
def unsort (s : St) : Option St :=
  let (h, a) := malloc al (s.slen0 + 1) s.h
  (load h a).bind fun wa => (load h s.cls).bind fun w =>
    (scatter s.off0 w s.slen0 1 wa).bind fun wa =>
      (copyBack wa s.slen0 1 w).bind fun w =>
        (free a (set (set h a (some (.words wa))) s.cls (some (.words w)))).bind fun h => some { s with h := h }

/-! ### stone, unravel, output -/

/-- `klist = malloc(...)`, src/diff.c:693. -/
def mallocNats (n : Nat) (h : Heap) : Heap × Ptr :=
  (set h (al.addr h) (some (.nats ((List.range n).map (al.nat h)))), al.addr h)

/-- `stone(class, slen[0], member, klist)`, src/diff.c:547-583, from an empty list of candidates: the state and `k`. -/
def stone (s : St) : Option (St × Nat) :=
  match s.h s.cls, s.h s.member, s.h s.klist, s.h s.clist with
  | some (.words a), some (.words b), some (.nats c), some (.cands _) =>
    if s.clen = 0 ∧ s.slen0 < a.length then
      (Diff.stone ((a.drop 1).take s.slen0) b c).bind fun r =>
        let h := set (set s.h s.klist (some (.nats r.c))) s.clist none
        some ({ s with h := set h (al.addr h) (some (.cands r.cl)), clist := al.addr h, clen := r.cl.length }, r.k)
    else none
  | _, _, _, _ => none

/-- `unravel(klist[k])`, src/diff.c:585-599. -/
def unravel (s : St) (k : Nat) : Option St :=
  match s.h s.klist, s.h s.clist, s.h s.J with
  | some (.nats c), some (.cands cl), some (.words J) =>
    if s.len0 < J.length then
      (c[k]?).bind fun p =>
        (unravelLoop cl s.pref (cl.length + 1) p (initJ s.len0 s.len1 s.pref s.suff ++ J.drop (s.len0 + 1))).bind fun J =>
          some { s with h := set s.h s.J (some (.words J)) }
    else none
  | _, _, _ => none

/-- `output(added, removed)` with the counters 0, src/diff.c:601-620 and 704-705. -/
def output (s : St) : Option (Int × Int) := (load s.h s.J).bind (Diff.output s.len0 s.len1)

/-- `ohcount_calc_diff`, src/diff.c:672-708, for texts of at most 100000 bytes.  `s`: the memory and what an earlier call has left in the
static variables. -/
def calcDiff (old new : Bytes) (s : St) : Option ((Int × Int) × St) := do
  let (h, p, n) ← prepare al old s.h
  let s := { s with h := h, file0 := p, len0 := n }
  let (h, p, n) ← prepare al new s.h
  let s := { s with h := h, file1 := p, len1 := n }
  let s := { s with clen := 0 }
  let s ← prune s
  let w ← load s.h s.file0
  let w ← sort s.off0 s.slen0 w
  let s := { s with h := set s.h s.file0 (some (.words w)) }
  let w ← load s.h s.file1
  let w ← sort s.off1 s.slen1 w
  let s := { s with h := set s.h s.file1 (some (.words w)) }
  let s := { s with member := s.file1 }
  let s ← equiv s
  let (h, p) ← realloc al s.member (s.slen1 + 2) s.h
  let s := { s with h := h, member := p }
  let s := { s with cls := s.file0 }
  let s ← unsort al s
  let (h, p) ← realloc al s.cls (s.slen0 + 2) s.h
  let s := { s with h := h, cls := p }
  let (h, p) := mallocNats al (s.slen0 + 2) s.h
  let s := { s with h := h, klist := p }
  let s := { s with clist := al.addr s.h, h := set s.h (al.addr s.h) (some (.cands [])) }
  let (s, k) ← stone al s
  let h ← free s.member s.h
  let s := { s with h := h }
  let h ← free s.cls s.h
  let s := { s with h := h }
  let (h, p) := malloc al (s.len0 + 2) s.h
  let s := { s with h := h, J := p }
  let s ← unravel s k
  let h ← free s.clist s.h
  let s := { s with h := h }
  let h ← free s.klist s.h
  let s := { s with h := h }
  let r ← output s
  let h ← free s.J s.h
  some (r, { s with h := h })

/-- Calls of `ohcount_calc_diff` one after the other. -/
def calcDiffs : List (Bytes × Bytes) → St → Option (List (Int × Int) × St)
  | [], s => some ([], s)
  | (old, new) :: ts, s => do
    let (r, s) ← calcDiff al old new s
    let (rs, s) ← calcDiffs ts s
    some (r :: rs, s)

end Ohcount.DiffWords
