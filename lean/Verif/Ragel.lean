import Verif.ParsedLanguage

/-!
Model of the line and entity parsers: the Ragel 6 scanners of `src/parsers/*.rl`
together with the macros of `src/parser_macros.h` they are built on.

A scanner `name := |* pattern => action; ... *|` is the list of its patterns
(`Rx`, transcribed from the `.rl` files by `tools/gen_grammars.py` into
`Verif/Gram/*.lean`).  `build` turns the patterns into a position automaton whose
edges carry the embedded actions, and `step` executes that automaton the way the
generated C code does: longest match, the earliest pattern among equally long
ones, embedded actions run while characters are consumed and are not undone when
the scanner has to go back to the end of the last match.  The translation of
patterns to automata is Ragel's and is not part of the repository's source; it is
modelled here, and `tools/check_tables.py` compares it with the tables of the
generated scanners kept in `/repo/ruby/x86_64-linux_ubuntu/ohcount.so` (read as
data): same states, same conditions, same actions in the same order.

Positions are offsets from `buffer`; the pointers `p`, `ts`, `te` are `Nat`s, the
pointer `line_start`, which may be NULL, is an `Option Nat`.  A callback whose start
would be computed from a NULL `line_start` sets the flag `ub`.  The parameter
`callback` is never NULL (all callers pass one, src/sourcefile.c:209, 262, 282).
C `int`s that count are `Int` (no overflow).
-/

namespace Ohcount.Ragel

/-! ### Character classes -/

/-- A set of bytes, as the number whose bit `b` tells whether `b` is in the set. -/
abbrev Cls := Nat

namespace Cls
/-- The single character `b`. -/
def chr (b : Nat) : Cls := 1 <<< b
/-- `any`: every byte. -/
def any : Cls := 2 ^ 256 - 1
/-- `a - b` for character sets. -/
def diff (a b : Cls) : Cls := a ^^^ (a &&& b)
/-- `^a`. -/
def neg (a : Cls) : Cls := diff any a
/-- `a | b` for character sets. -/
def union (a b : Cls) : Cls := a ||| b
/-- `a..b`. -/
def range (a b : Nat) : Cls := (2 ^ (b + 1) - 1) ^^^ (2 ^ a - 1)
/-- `[...]` listing single characters. -/
def chars : List Nat → Cls
  | [] => 0
  | b :: r => union (chr b) (chars r)
/-- `[...]` with ranges `lo..hi`. -/
def ranges : List (Nat × Nat) → Cls
  | [] => 0
  | (a, b) :: r => union (range a b) (ranges r)
/-- Membership. -/
def has (c : Cls) (b : Nat) : Bool := (c >>> b) % 2 == 1
end Cls

/-! ### Patterns -/

/-- Values of the variable `entity`: `NEWLINE`, `INTERNAL_NL`, `CHECK_BLANK_ENTRY`
(parser_macros.h:304-321) or the index of one of the language's own entities. -/
inductive Ent where
  | newline | internalNl | checkBlank | own (i : Nat)
  deriving DecidableEq, Repr

/-- Conditions of `when`. -/
inductive Cond where
  /-- `p+1 < pe && *(p+1) != '\n'`, common.rl:9. -/
  | crAlone
  /-- `nest_count == 0` (`equal_count == 0` in lua.rl). -/
  | nestZero
  /-- `rebol_string_level > 0`, rebol.rl:31. -/
  | nested
  /-- `no_code`, common.rl:71. -/
  | noCode
  /-- `!no_code`. -/
  | someCode
  /-- `starts_line`, common.rl:75-77. -/
  | startsLine
  /-- `!starts_line`. -/
  | midLine
  /-- `current_indent_level < prior_indent_level`, haml.rl:99. -/
  | indLt
  /-- `current_indent_level >= prior_indent_level`, haml.rl:100. -/
  | indGe
  deriving DecidableEq, Repr

/-- Actions of the parsers with embedded languages, whose machines call each other.  Languages are numbered in the
order of their `#EMBED` comments, the parser's own language being 0; machines in the order of their definition. -/
inductive Emb where
  /-- `<lang>_ccallback` of an embedded language. -/
  | cb (lang : Nat)
  /-- `check_blank_outry`, common.rl:65-67. -/
  | outry
  /-- `{ saw(lang); }` -/
  | saw (lang : Nat)
  /-- `{ saw(lang); fcall m; }` -/
  | sawCall (lang m : Nat)
  /-- `{ p = ts; fret; }` -/
  | back
  /-- `{ fret; }` -/
  | ret
  /-- `{ fgoto m; }` -/
  | goto (m : Nat)
  /-- `current_indent_level++`, `current_indent_level = 0`, `prior_indent_level = current_indent_level`, haml.rl:55-57. -/
  | indInc | indRes | indSet
  /-- `%/commit`, perl.rl:57: `commit` at the end of the buffer, before the end action.  Written as an action on leaving. -/
  | eofCommit
  deriving DecidableEq, Repr

/-- Actions embedded in patterns. -/
inductive Act where
  /-- `{ entity = e; }` -/
  | setEnt (e : Ent)
  /-- `code`, common.rl:53-56. -/
  | code
  /-- `comment`, common.rl:58-63. -/
  | comment
  /-- `enqueue`, common.rl:30-39. -/
  | enqueue
  /-- `commit`, common.rl:41-49. -/
  | commit
  /-- `<lang>_ccallback`. -/
  | cb
  /-- `nest_count = 0`, `nest_count++`, `nest_count--` and the like. -/
  | nestRes | nestInc | nestDec
  /-- `{ fhold; }`; `i` tells apart different occurrences in one file, which Ragel
  treats as different actions. -/
  | fhold (i : Nat)
  /-- An action of a parser with embedded languages (see RagelEmbed.lean). -/
  | emb (e : Emb)
  deriving DecidableEq, Repr

/-- Ragel expressions.  `fin e a` is `e @a`, `all e a` is `e $a`, `ent e a` is
`e >a`, `leave e a` is `e %a`, `guard a b` is `a :>> b`. -/
inductive Rx where
  | cls (c : Cls)
  | eps
  | seq (a b : Rx) | alt (a b : Rx) | guard (a b : Rx)
  | star (a : Rx) | plus (a : Rx) | opt (a : Rx)
  | fin (a : Rx) (x : Act) | all (a : Rx) (x : Act) | ent (a : Rx) (x : Act) | leave (a : Rx) (x : Act)
  | cond (a : Rx) (c : Cond)
  deriving Repr

namespace Rx
/-- A literal string `'abc'`. -/
def lit : List Nat → Rx
  | [] => eps
  | [b] => cls (Cls.chr b)
  | b :: r => go (cls (Cls.chr b)) r
where
  go : Rx → List Nat → Rx
    | a, [] => a
    | a, b :: r => go (seq a (cls (Cls.chr b))) r
/-- `a1 | a2 | ...` -/
def alts : List Rx → Rx
  | [] => eps
  | a :: r => go a r
where
  go : Rx → List Rx → Rx
    | a, [] => a
    | a, b :: r => go (alt a b) r
/-- `a1 a2 ...` -/
def seqs : List Rx → Rx
  | [] => eps
  | a :: r => go a r
where
  go : Rx → List Rx → Rx
    | a, [] => a
    | a, b :: r => go (seq a b) r
end Rx

/-! ### Position automaton -/

/-- An action with the ordering number Ragel gives it (the order in which the
embedding operators are met when the expression is walked). -/
abbrev OAct := Nat × Act

/-- An occurrence of a character class in a pattern. -/
structure PosData where
  mask : Cls
  conds : List Cond := []
  acts : List OAct := []
  hi : Nat := 0
  lo : Nat := 0
  deriving DecidableEq, Repr

/-- A walked expression: is it nullable, its first positions with the actions run on
entering, its last positions with the actions run on leaving, its positions and the
edges between them. -/
structure Frag where
  null : Bool
  first : List (Nat × List OAct)
  last : List (Nat × List OAct)
  ps : List PosData
  es : List (Nat × Nat × List OAct)
  ord : Nat
  g : Nat
  deriving DecidableEq, Repr

def link (l f : List (Nat × List OAct)) : List (Nat × Nat × List OAct) :=
  l.flatMap fun (i, a) => f.map fun (j, b) => (i, j, a ++ b)

def mapIdxFrom (f : Nat → PosData → PosData) : Nat → List PosData → List PosData
  | _, [] => []
  | i, p :: r => f i p :: mapIdxFrom f (i + 1) r

/-- Walk of an expression whose positions are numbered from `n`, whose actions are
ordered from `ord`, and whose guards are numbered from `g`. -/
def walk : Rx → (n ord g : Nat) → Frag
  | .cls c, n, ord, g => ⟨false, [(n, [])], [(n, [])], [{ mask := c }], [], ord, g⟩
  | .eps, _, ord, g => ⟨true, [], [], [], [], ord, g⟩
  | .seq a b, n, ord, g =>
    let x := walk a n ord g
    let y := walk b (n + x.ps.length) x.ord x.g
    ⟨x.null && y.null, if x.null then x.first ++ y.first else x.first,
     if y.null then x.last ++ y.last else y.last, x.ps ++ y.ps,
     x.es ++ y.es ++ link x.last y.first, y.ord, y.g⟩
  | .guard a b, n, ord, g =>
    let x := walk a n ord g
    let m := n + x.ps.length
    let y := walk b m x.ord x.g
    let lasts := y.last.map (·.1)
    let firsts := y.first.map (·.1)
    let bit := 1 <<< (y.g + 1)
    let mark := fun i (p : PosData) =>
      if lasts.contains i then { p with hi := p.hi ||| bit }
      else if i < m || firsts.contains i then { p with lo := p.lo ||| bit } else p
    ⟨x.null && y.null, if x.null then x.first ++ y.first else x.first,
     if y.null then x.last ++ y.last else y.last, mapIdxFrom mark n (x.ps ++ y.ps),
     x.es ++ y.es ++ link x.last y.first, y.ord, y.g + 1⟩
  | .alt a b, n, ord, g =>
    let x := walk a n ord g
    let y := walk b (n + x.ps.length) x.ord x.g
    ⟨x.null || y.null, x.first ++ y.first, x.last ++ y.last, x.ps ++ y.ps, x.es ++ y.es, y.ord, y.g⟩
  | .star a, n, ord, g =>
    let x := walk a n ord g
    { x with null := true, es := x.es ++ link x.last x.first }
  | .plus a, n, ord, g =>
    let x := walk a n ord g
    { x with es := x.es ++ link x.last x.first }
  | .opt a, n, ord, g => { walk a n ord g with null := true }
  | .fin a t, n, ord, g =>
    let x := walk a n ord g
    let lasts := x.last.map (·.1)
    { x with ps := mapIdxFrom (fun i p => if lasts.contains i then { p with acts := p.acts ++ [(x.ord, t)] } else p) n x.ps,
             ord := x.ord + 1 }
  | .all a t, n, ord, g =>
    let x := walk a n ord g
    { x with ps := mapIdxFrom (fun _ p => { p with acts := p.acts ++ [(x.ord, t)] }) n x.ps, ord := x.ord + 1 }
  | .ent a t, n, ord, g =>
    let x := walk a n (ord + 1) g
    { x with first := x.first.map fun (i, l) => (i, l ++ [(ord, t)]) }
  | .leave a t, n, ord, g =>
    let x := walk a n ord g
    { x with last := x.last.map (fun (i, l) => (i, l ++ [(x.ord, t)])), ord := x.ord + 1 }
  | .cond a c, n, ord, g =>
    let x := walk a n ord g
    { x with ps := mapIdxFrom (fun _ p => { p with conds := p.conds ++ [c] }) n x.ps }

/-- An edge: the position it leads to, with that position's class and conditions, and
the actions run when it is taken. -/
structure Edge where
  to : Nat
  mask : Cls
  conds : List Cond
  acts : List OAct
  hi : Nat
  lo : Nat
  deriving DecidableEq, Repr

/-- The automaton of a scanner.  `final[i]` is the pattern that position `i` may end,
with the actions run on leaving it; the actions of pattern `k` have ordering numbers below `bounds[k]`,
those of later patterns do not. -/
structure Nfa where
  start : List Edge
  follow : List (List Edge)
  final : List (Option (Nat × List OAct))
  bounds : List Nat
  deriving DecidableEq, Repr

/-- Frags of the patterns of a scanner, in order. -/
def walkAll : List Rx → (n ord g : Nat) → List Frag
  | [], _, _, _ => []
  | r :: rs, n, ord, g =>
    let x := walk r n ord g
    x :: walkAll rs (n + x.ps.length) x.ord x.g

def mkEdge (ps : List PosData) (j : Nat) (a : List OAct) : Edge :=
  let p := ps.getD j { mask := 0 }
  ⟨j, p.mask, p.conds, a ++ p.acts, p.hi, p.lo⟩

def finals : Nat → List Frag → List (Nat × Nat × List OAct)
  | _, [] => []
  | k, f :: r => f.last.map (fun (i, a) => (i, k, a)) ++ finals (k + 1) r

/-- The automaton of a scanner with the given patterns. -/
def build (pats : List Rx) : Nfa :=
  let fs := walkAll pats 0 0 0
  let ps := fs.flatMap (·.ps)
  let es := fs.flatMap (·.es)
  let fin := finals 0 fs
  { start := fs.flatMap fun f => f.first.map fun (j, a) => mkEdge ps j a
    follow := (List.range ps.length).map fun i =>
      (es.filter fun e => e.1 == i).map fun (_, j, a) => mkEdge ps j a
    final := (List.range ps.length).map fun i => (fin.find? fun e => e.1 == i).map (·.2)
    bounds := fs.map (·.ord) }

/-- Insertion in order of the ordering number, dropping repetitions. -/
def insAct (x : OAct) : List OAct → List OAct
  | [] => [x]
  | y :: r => if x.1 < y.1 then x :: y :: r else if x.1 == y.1 then y :: r else y :: insAct x r

/-- Keeps the first occurrence of each action. -/
def dedupActs : List Act → List Act → List Act
  | _, [] => []
  | seen, a :: r => if a ∈ seen then dedupActs seen r else a :: dedupActs (a :: seen) r

/-- The actions of a transition: those of all its edges, in order, each once. -/
def sortActs (l : List OAct) : List Act :=
  dedupActs [] ((l.foldl (fun acc x => insAct x acc) []).map (·.2))

def insNat (x : Nat) : List Nat → List Nat
  | [] => [x]
  | y :: r => if x < y then x :: y :: r else if x == y then y :: r else y :: insNat x r

/-- A state of the scanner: the set of positions just read; `[]` is the start state. -/
abbrev State := List Nat

namespace Nfa

def edges (m : Nfa) (q : State) : List Edge :=
  if q.isEmpty then m.start else q.flatMap fun i => m.follow.getD i []

/-- Edges for the next character `b` whose conditions hold, after `:>>` has removed the
edges that stay in the left operand when the right operand is completed. -/
def enabled (m : Nfa) (q : State) (b : Nat) (cv : Cond → Bool) : List Edge :=
  let es := (m.edges q).filter fun e => e.mask.has b && e.conds.all cv
  let his := es.foldl (fun a e => a ||| e.hi) 0
  es.filter fun e => e.lo &&& his == 0

def minOpt : Option Nat → Option Nat → Option Nat
  | none, b => b
  | a, none => a
  | some a, some b => some (if a ≤ b then a else b)

/-- The pattern matched in state `q`: the earliest one that ends there. -/
def accepts (m : Nfa) (q : State) : Option Nat :=
  q.foldl (fun acc i => minOpt acc ((m.final.getD i none).map (·.1))) none

/-- Actions run on leaving state `q`. -/
def leaveActs (m : Nfa) (q : State) : List Act :=
  sortActs (q.flatMap fun i => ((m.final.getD i none).map (·.2)).getD [])

/-- In this state the match cannot be continued, so it is ended without looking at the
next character. -/
def isLast (m : Nfa) (q : State) : Bool :=
  (m.accepts q).isSome && (q.flatMap fun i => m.follow.getD i []).isEmpty && (m.leaveActs q).isEmpty

/-- The actions run on a transition to state `q`, as long as its end action has not been run.  If the match ends
there, its end action comes right after the actions of its pattern, and those of later patterns come after it.
Simplification: these are left out.  In the parsers without embedded languages they only assign `entity`, which every
pattern assigns before it is read; in those with embedded languages the end action jumps to another machine, so that
they are not run (`tools/check_tables.py` compares the place of the end action). -/
def beforeEnd (m : Nfa) (q : State) (l : List OAct) : List OAct :=
  match m.accepts q with
  | some k => if m.isLast q then l.filter fun x => x.1 < m.bounds.getD k 0 else l
  | none => l

/-- The transition on `b`: next state and actions. -/
def delta (m : Nfa) (q : State) (b : Nat) (cv : Cond → Bool) : Option (State × List Act) :=
  match m.enabled q b cv with
  | [] => none
  | es =>
    let q' := es.foldl (fun acc e => insNat e.to acc) []
    some (q', sortActs (m.beforeEnd q' (es.flatMap (·.acts))))

end Nfa

/-! ### Variables and macros of parser_macros.h -/

/-- A line callback `callback(lang, kind, s, e, userdata)` (the language is that of the parser). -/
structure Rep where
  kind : Kind
  s : Nat
  e : Nat
  deriving DecidableEq, Repr

/-- The static variables of parser_macros.h:328-411 that line and entity parsers use,
with the callbacks made so far. -/
structure Data where
  /-- `line_start` -/
  ls : Option Nat := none
  /-- `line_contains_code` -/
  lcc : Bool := false
  /-- `whole_line_comment` -/
  wlc : Bool := false
  /-- `entity` -/
  ent : Ent := .own 0
  /-- `inqueue` -/
  inq : Bool := false
  /-- `last_line_start` -/
  lastLs : Option Nat := none
  /-- `last_line_contains_code` -/
  lastLcc : Bool := false
  /-- `last_whole_line_comment` -/
  lastWlc : Bool := false
  /-- the list from `callback_list_head` -/
  queue : List Rep := []
  /-- the parser's nesting counter, if it has one -/
  nest : Int := 0
  /-- line callbacks made -/
  out : List Rep := []
  /-- entity callbacks made -/
  ents : List (Ent × Nat × Nat) := []
  /-- a callback position was computed from a NULL `line_start` -/
  ub : Bool := false
  /-- `current_indent_level` and `prior_indent_level`, haml.rl -/
  ind : Nat := 0
  prior : Nat := 0
  deriving DecidableEq, Repr

namespace Data

/-- `dequeue`, parser_macros.h:107-112. -/
def dequeue (d : Data) : Data :=
  { d with inq := false, ls := d.lastLs, lcc := d.lastLcc, wlc := d.lastWlc }

/-- `if (inqueue) { dequeue; }`. -/
def deq (d : Data) : Data := if d.inq then d.dequeue else d

/-- The Ragel action `code`, common.rl:53-56. -/
def actCode (d : Data) (ts : Nat) : Data :=
  { d with ls := if !d.lcc && d.ls.isNone then some ts else d.ls, lcc := true }

/-- The Ragel action `comment`, common.rl:58-63. -/
def actComment (d : Data) (ts : Nat) : Data :=
  if d.lcc then d else { d with wlc := true, ls := if d.ls.isNone then some ts else d.ls }

/-- The macro `ls`, parser_macros.h:119-122. -/
def mLs (d : Data) (ts : Nat) : Data :=
  let d := d.deq
  { d with ls := if d.ls.isNone then some ts else d.ls }

/-- The macro `code`, parser_macros.h:130-134. -/
def mCode (d : Data) (ts : Nat) : Data := d.deq.actCode ts

/-- The macro `comment`, parser_macros.h:141-147. -/
def mComment (d : Data) (ts : Nat) : Data := d.deq.actComment ts

/-- The Ragel action `enqueue`, common.rl:30-39. -/
def actEnqueue (d : Data) : Data :=
  { d with inq := true, queue := [], lastLs := d.ls, lastLcc := d.lcc, lastWlc := d.wlc }

/-- The Ragel action `commit`, common.rl:41-49. -/
def actCommit (d : Data) : Data :=
  if d.inq then { d with out := d.out ++ d.queue, queue := [], inq := false } else d

/-- The kind of line that the flags describe. -/
def kind (d : Data) : Kind := if d.lcc then .lcode else if d.wlc then .lcomment else .lblank

/-- A callback with the given start, possibly NULL, and end: queued or made. -/
def emit (d : Data) (q : Bool) (k : Kind) (s : Option Nat) (e : Nat) : Data :=
  match s with
  | none => { d with ub := true }
  | some s => if q then { d with queue := d.queue ++ [⟨k, s, e⟩] } else { d with out := d.out ++ [⟨k, s, e⟩] }

/-- `p > line_start` for a non-NULL `p`. -/
def after (p : Nat) (ls : Option Nat) : Bool := match ls with | none => true | some x => x < p

/-- `std_internal_newline`, parser_macros.h:169-191. -/
def stdInternalNewline (d : Data) (p : Nat) : Data :=
  let d' := if after p d.ls then d.emit d.inq d.kind d.ls p else d
  { d' with wlc := false, lcc := false, ls := some p }

/-- `std_newline`, parser_macros.h:215-228. -/
def stdNewline (d : Data) (ts te : Nat) : Data :=
  let d := d.deq
  let d' := if after te d.ls then
      (if d.lcc then d.emit false .lcode d.ls te
       else if d.wlc then d.emit false .lcomment d.ls te
       else d.emit false .lblank (some ts) te)
    else d
  { d' with wlc := false, lcc := false, ls := none }

/-- `process_last_line`, parser_macros.h:253-260. -/
def processLastLine (d : Data) (pe : Nat) : Data :=
  if d.wlc || d.lcc then
    (if d.lcc then d.emit false .lcode d.ls pe else d.emit false .lcomment d.ls pe)
  else d

end Data

/-- What the `switch (entity)` of `<lang>_ccallback` does in one of its cases. -/
inductive Op where
  | ls | code | comment | internalNewline | newline | nop
  deriving DecidableEq, Repr

/-- What a scanner does when a pattern has matched. -/
inductive End where
  | none | cb | ecb
  deriving DecidableEq, Repr

/-- A scanner: its patterns with their end actions, and the cases of its `switch (entity)`. -/
structure Scanner where
  pats : List (Rx × End)
  sw : List (Ent × Op)

namespace Scanner
def nfa (S : Scanner) : Nfa := build (S.pats.map (·.1))
def ends (S : Scanner) : List End := S.pats.map (·.2)
end Scanner

/-- A scanner ready for execution. -/
structure Machine where
  nfa : Nfa
  ends : List End
  sw : List (Ent × Op)

def Scanner.machine (S : Scanner) : Machine := ⟨S.nfa, S.ends, S.sw⟩

namespace Machine

def op (M : Machine) (e : Ent) : Op :=
  match M.sw.find? fun x => x.1 == e with | some x => x.2 | none => .nop

/-- `<lang>_ccallback` with the given values of `p`, `ts`, `te`. -/
def callback (M : Machine) (d : Data) (p ts te : Nat) : Data :=
  match M.op d.ent with
  | .ls => d.mLs ts
  | .code => d.mCode ts
  | .comment => d.mComment ts
  | .internalNewline => d.stdInternalNewline p
  | .newline => d.stdNewline ts te
  | .nop => d

/-- One embedded action.  `np` is `p + 1`: the position read next unless `fhold` moves it back. -/
def act (M : Machine) (ts te : Nat) (s : Data × Nat) (a : Act) : Data × Nat :=
  let d := s.1
  match a with
  | .setEnt e => ({ d with ent := e }, s.2)
  | .code => (d.actCode ts, s.2)
  | .comment => (d.actComment ts, s.2)
  | .enqueue => (d.actEnqueue, s.2)
  | .commit => (d.actCommit, s.2)
  | .cb => (M.callback d (s.2 - 1) ts te, s.2)
  | .nestRes => ({ d with nest := 0 }, s.2)
  | .nestInc => ({ d with nest := d.nest + 1 }, s.2)
  | .nestDec => ({ d with nest := d.nest - 1 }, s.2)
  | .fhold _ => (d, s.2 - 1)
  | .emb _ => (d, s.2)      -- not in the scanners run by this function

def acts (M : Machine) (ts te : Nat) (s : Data × Nat) (l : List Act) : Data × Nat :=
  l.foldl (M.act ts te) s

/-- The end action of pattern `k`; `p = te - 1` when it runs. -/
def runEnd (M : Machine) (d : Data) (ts te k : Nat) : Data :=
  match M.ends.getD k .none with
  | .none => d
  | .cb => M.callback d (te - 1) ts te
  | .ecb => { d with ents := d.ents ++ [(d.ent, ts, te)] }

end Machine

/-- A line ends just before position `e`: the byte before `e` is a line feed or a form
feed, or a carriage return that is not the last byte of the buffer and not followed by a
line feed (the `newline` of common.rl:9). -/
def lineEnd (buf : List Byte) : Nat → Bool
  | 0 => false
  | p + 1 => match buf[p]? with
    | none => false
    | some b => b == 10 || b == 12 || (b == 13 && match buf[p + 1]? with | some c => c != 10 | none => false)

/-- State of the scanner: `cs` (as a set of positions), `p`, `ts`, `te`, `act` (the
pattern matched by the last match recorded in this token) and the variables above.
Two ghosts, which nothing reads: `backs`, the pairs `(te, p)` for which the scanner went back
from `p` to `te`; `raw`, the line ends passed inside a token without a callback. -/
structure Cfg where
  q : State := []
  p : Nat := 0
  ts : Nat := 0
  te : Nat := 0
  acc : Option Nat := none
  d : Data := {}
  backs : List (Nat × Nat) := []
  raw : List Nat := []
  deriving DecidableEq, Repr

/-- `starts_line` at position `p`, common.rl:75-77. -/
def startsLineAt (buf : List Byte) (p : Nat) : Bool :=
  p == 0 || (match buf[p - 1]? with | some b => b == 13 || b == 10 || b == 12 | none => false)

/-- The condition at position `p`. -/
def condAt (buf : List Byte) (p : Nat) (d : Data) : Cond → Bool
  | .crAlone => match buf[p + 1]? with | some b => b != 10 | none => false
  | .nestZero => d.nest == 0
  | .nested => decide (0 < d.nest)
  | .noCode => !d.lcc
  | .someCode => d.lcc
  | .startsLine => startsLineAt buf p
  | .midLine => !startsLineAt buf p
  | .indLt => decide (d.ind < d.prior)
  | .indGe => decide (d.prior ≤ d.ind)

namespace Machine

/-- The token ends at `te` with pattern `k`. -/
def finish (M : Machine) (c : Cfg) (d : Data) (te k : Nat) : Cfg :=
  { c with q := [], p := te, te := te, acc := none, d := M.runEnd d c.ts te k }

/-- No transition from state `c.q` at `c.p` (or the end of the buffer). -/
def fallback (M : Machine) (c : Cfg) : Option Cfg :=
  match M.nfa.accepts c.q with
  | some k => some (M.finish c (M.acts c.ts c.te (c.d, c.p + 1) (M.nfa.leaveActs c.q)).1 c.p k)
  | none =>
    match c.acc with
    | some k => some { M.finish c c.d c.te k with backs := c.backs ++ [(c.te, c.p)] }
    | none => none

/-- One character, or one decision at the end of a token.  `none`: the scanner stops. -/
def step (M : Machine) (buf : List Byte) (c : Cfg) : Option Cfg :=
  match buf[c.p]? with
  | none => if c.q.isEmpty then none else M.fallback c
  | some b =>
    match M.nfa.delta c.q b.toNat (condAt buf c.p c.d) with
    | none => if c.q.isEmpty then none else M.fallback c
    | some (q', as) =>
      let ts := if c.q.isEmpty then c.p else c.ts
      let k? := M.nfa.accepts q'
      let te := if k?.isSome then c.p + 1 else c.te
      let acc := if k?.isSome then k? else if c.q.isEmpty then none else c.acc
      let r := M.acts ts te (c.d, c.p + 1) as
      let raw := if !c.q.isEmpty && lineEnd buf c.p && !as.contains .cb then c.raw ++ [c.p] else c.raw
      if M.nfa.isLast q' then
        some (M.finish { c with ts := ts, raw := raw } r.1 r.2 (k?.getD 0))
      else some { c with q := q', p := r.2, ts := ts, te := te, acc := acc, d := r.1, raw := raw }

def run (M : Machine) (buf : List Byte) : Nat → Cfg → Cfg
  | 0, c => c
  | n + 1, c => match M.step buf c with | none => c | some c' => run M buf n c'

end Machine

/-- Values that a parse function finds in the static variables that `init`
(parser_macros.h:417-429) and `%% write init` do not assign. -/
structure Leftover where
  lastLs : Option Nat := none
  lastLcc : Bool := false
  lastWlc : Bool := false
  queue : List Rep := []
  deriving DecidableEq, Repr

/-- `init`, parser_macros.h:417-429, `%% write init` (`ts = te = 0, act = 0`), and the
declaration `int nest_count = 0` of the parse functions that have one. -/
def initCfg (l : Leftover) : Cfg :=
  { d := { lastLs := l.lastLs, lastLcc := l.lastLcc, lastWlc := l.lastWlc, queue := l.queue } }

/-- Number of steps allowed; enough for every buffer (see the termination theorems). -/
def fuel (n : Nat) : Nat := (n + 1) * (n + 8)

/-- The scanner run to its end. -/
def exec (M : Machine) (l : Leftover) (buf : List Byte) : Cfg := M.run buf (fuel buf.length) (initCfg l)

/-- `parse_<lang>(buffer, length, 1, callback, userdata)`: the line callbacks. -/
def lineReports (M : Machine) (l : Leftover) (buf : List Byte) : List Rep :=
  ((exec M l buf).d.processLastLine buf.length).out

/-- `parse_<lang>(buffer, length, 0, callback, userdata)`: the entity callbacks. -/
def entityReports (M : Machine) (l : Leftover) (buf : List Byte) : List (Ent × Nat × Nat) :=
  (exec M l buf).d.ents

/-- The reports with their language, as the callback receives them. -/
def reports (lang : String) (M : Machine) (l : Leftover) (buf : List Byte) : List Report :=
  (lineReports M l buf).map fun r => ⟨lang, r.kind, r.s, r.e⟩

end Ohcount.Ragel
