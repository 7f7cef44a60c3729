import Verif.Ragel

/-!
Model of the parsers with embedded languages (html.rl, mxml.rl, nix.rl, coffeescript.rl, metapost_with_tex.rl, jsp.rl,
phphtml.rl, clearsilverhtml.rl, cs_aspx.rl, rhtml.rl, vb_aspx.rl), and of perl.rl and haml.rl, whose machines have actions of
their own.

Such a parser consists of several machines, which call each other (`fcall`, `fret`) or pass control to each other
(`fgoto`).  Most are scanners as in Ragel.lean; those for comments and strings that may contain embedded code
(e.g. phphtml.rl:58-96) are plain machines: they have no tokens, and the parser stops when one of them cannot go on.
The actions that Ragel.lean leaves out (`Emb`) are executed here.  Ragel's generated code is modelled as follows
(Ragel 6, table driven code):

* the state is set to the target of the transition before its actions are run; `fcall` pushes it on `stack`;
* `fcall`, `fret` and `fgoto` leave the remaining actions of the transition undone;
* `p` is moved on by one after the actions;
* a match that can be continued sets `te` before the actions of its transition, one that cannot sets it afterwards;
* `ts` is set when a scanner reads the first character of a token, and keeps its value in plain machines.

`tools/gen_embedded.py` transcribes the machines into `Verif/Gram/Emb*.lean`.
-/

namespace Ohcount.Ragel

/-- What the `switch (entity)` of a callback does in one of its cases: as in `Op`, or one of the macros for embedded
languages. -/
inductive EOp where
  | ls | code | comment | internalNewline | newline | embInternalNewline | embNewline | checkBlank | nop
  deriving DecidableEq, Repr

/-- What a scanner does when a pattern has matched. -/
inductive EEnd where
  | none
  /-- `<lang>_ccallback` -/
  | cb (lang : Nat)
  /-- `<lang>_ecallback` -/
  | ecb (lang : Nat)
  /-- `{ fcall m; }` -/
  | call (m : Nat)
  /-- `{ fgoto m; }` -/
  | goto (m : Nat)
  deriving DecidableEq, Repr

/-- A machine as it is written: patterns with their end actions if it is a scanner, one pattern otherwise. -/
structure EScanner where
  pats : List (Rx × EEnd)
  scanner : Bool

/-- A parser as it is written: its language and the embedded ones, the cases of their `switch (entity)`, its machines,
and those the parse function starts with for lines and for entities. -/
structure EParser where
  name : String
  langs : List String
  sws : List (List (Ent × EOp))
  machs : List EScanner
  line : Nat
  entity : Nat

/-- A machine ready for execution. -/
structure EMach where
  nfa : Nfa
  ends : List EEnd
  scanner : Bool
  deriving DecidableEq, Repr

def EScanner.mach (S : EScanner) : EMach := ⟨build (S.pats.map (·.1)), S.pats.map (·.2), S.scanner⟩

/-- A parser ready for execution. -/
structure Multi where
  sws : List (List (Ent × EOp))
  machs : List EMach

def EParser.multi (P : EParser) : Multi := ⟨P.sws, P.machs.map (·.mach)⟩

/-! ### Variables -/

/-- The variables of `Data`, with the language of each callback made or queued, and `seen` (parser_macros.h:386). -/
structure EData where
  d : Data := {}
  /-- languages of `d.out` -/
  langs : List Nat := []
  /-- languages of `d.queue` -/
  qlangs : List Nat := []
  /-- languages of `d.ents` -/
  elangs : List Nat := []
  /-- `seen` -/
  seen : Option Nat := none
  deriving DecidableEq, Repr

namespace EData

/-- The variables are now `d'`; callbacks made or queued on the way were given the language `l`. -/
def upd (x : EData) (l : Nat) (d' : Data) : EData :=
  { x with d := d',
           langs := x.langs ++ List.replicate (d'.out.length - x.d.out.length) l,
           qlangs := x.qlangs ++ List.replicate (d'.queue.length - x.d.queue.length) l }

/-- The Ragel action `enqueue`, common.rl:30-39. -/
def actEnqueue (x : EData) : EData := { x with d := x.d.actEnqueue, qlangs := [] }

/-- The Ragel action `commit`, common.rl:41-49. -/
def actCommit (x : EData) : EData :=
  if x.d.inq then { x with d := x.d.actCommit, langs := x.langs ++ x.qlangs, qlangs := [] } else x

/-- The macro `saw`, parser_macros.h:157-161. -/
def saw (x : EData) (l : Nat) : EData := { x with seen := some l, d := { x.d with wlc := false, lcc := false } }

/-- The Ragel action `check_blank_outry`, common.rl:65-67. -/
def outry (x : EData) : EData := if !x.d.lcc && !x.d.wlc then { x with seen := none } else x

/-- `(seen && seen != lang) ? seen : lang`, parser_macros.h:202-205 and 239-242. -/
def embLang (x : EData) (l : Nat) : Nat :=
  match x.seen with
  | some s => if s != l then s else l
  | none => l

end EData

/-- The loop of `is_blank_entry` (parser_macros.h:270-279) on the text from `pos` on: the offset of the end of the line,
if only blanks and tabs come before it.  At the end of the buffer the loop finds the NUL that all callers of the parsers
put there, and gives up. -/
def blankRest : List Byte → Option Nat
  | [] => none
  | b :: r =>
    if b == 10 || b == 12 then some 0
    else if b == 13 then some (if r.head? == some 10 then 1 else 0)
    else if b == 9 || b == 32 then (blankRest r).map (· + 1)
    else none

/-- `is_blank_entry(&p)`, parser_macros.h:270-279: the new `p`. -/
def blankEntry (buf : List Byte) (p : Nat) : Option Nat := (blankRest (buf.drop (p + 1))).map (· + (p + 1))

/-- Where control goes. -/
inductive Jump where
  | call (m : Nat) | goto (m : Nat) | ret
  deriving DecidableEq, Repr

/-- What actions change: the variables, `p + 1`, `te`, and the jump that ended them. -/
structure ES where
  x : EData
  np : Nat
  te : Nat
  jump : Option Jump := none
  deriving DecidableEq, Repr

namespace Multi

def op (M : Multi) (l : Nat) (e : Ent) : EOp :=
  match (M.sws.getD l []).find? fun y => y.1 == e with | some y => y.2 | none => .nop

/-- `<lang>_ccallback` of language `l`. -/
def callback (M : Multi) (buf : List Byte) (l : Nat) (ts : Nat) (s : ES) : ES :=
  let x := s.x
  match M.op l x.d.ent with
  | .ls => { s with x := x.upd l (x.d.mLs ts) }
  | .code => { s with x := x.upd l (x.d.mCode ts) }
  | .comment => { s with x := x.upd l (x.d.mComment ts) }
  | .internalNewline => { s with x := x.upd l (x.d.stdInternalNewline (s.np - 1)) }
  | .newline => { s with x := x.upd l (x.d.stdNewline ts s.te) }
  | .embInternalNewline => { s with x := { x.upd (x.embLang l) (x.d.stdInternalNewline (s.np - 1)) with seen := none } }
  | .embNewline => { s with x := { x.upd (x.embLang l) (x.d.stdNewline ts s.te) with seen := none } }
  | .checkBlank =>
    match blankEntry buf (s.np - 1) with
    | none => s
    | some p => { s with x := x.upd l (x.d.stdNewline ts (p + 1)), np := p + 1, te := p + 1 }
  | .nop => s

/-- One action. -/
def act (M : Multi) (buf : List Byte) (ts : Nat) (s : ES) (a : Act) : ES :=
  let x := s.x
  match a with
  | .setEnt e => { s with x := { x with d := { x.d with ent := e } } }
  | .code => { s with x := { x with d := x.d.actCode ts } }
  | .comment => { s with x := { x with d := x.d.actComment ts } }
  | .enqueue => { s with x := x.actEnqueue }
  | .commit => { s with x := x.actCommit }
  | .cb => M.callback buf 0 ts s
  | .nestRes => { s with x := { x with d := { x.d with nest := 0 } } }
  | .nestInc => { s with x := { x with d := { x.d with nest := x.d.nest + 1 } } }
  | .nestDec => { s with x := { x with d := { x.d with nest := x.d.nest - 1 } } }
  | .fhold _ => { s with np := s.np - 1 }
  | .emb (.cb l) => M.callback buf l ts s
  | .emb .outry => { s with x := x.outry }
  | .emb (.saw l) => { s with x := x.saw l }
  | .emb (.sawCall l m) => { s with x := x.saw l, jump := some (.call m) }
  | .emb .back => { s with np := ts + 1, jump := some .ret }
  | .emb .ret => { s with jump := some .ret }
  | .emb (.goto m) => { s with jump := some (.goto m) }
  | .emb .indInc => { s with x := { x with d := { x.d with ind := x.d.ind + 1 } } }
  | .emb .indRes => { s with x := { x with d := { x.d with ind := 0 } } }
  | .emb .indSet => { s with x := { x with d := { x.d with prior := x.d.ind } } }
  | .emb .eofCommit => if buf.length < s.np then { s with x := x.actCommit } else s

/-- The actions of a transition, up to the first that jumps. -/
def acts (M : Multi) (buf : List Byte) (ts : Nat) : ES → List Act → ES
  | s, [] => s
  | s, a :: r =>
    let s' := M.act buf ts s a
    if s'.jump.isSome then s' else acts M buf ts s' r

/-- An end action; before it, `te` has been set to `s.np`. -/
def runEnd (M : Multi) (buf : List Byte) (ts : Nat) (s : ES) : EEnd → ES
  | .none => s
  | .cb l => M.callback buf l ts s
  | .ecb l => { s with x := { s.x with d := { s.x.d with ents := s.x.d.ents ++ [(s.x.d.ent, ts, s.te)] }, elangs := s.x.elangs ++ [l] } }
  | .call m => { s with jump := some (.call m) }
  | .goto m => { s with jump := some (.goto m) }

end Multi

/-- State of the parser: machine `m` and its state `q`, the pairs on `stack`, `p`, `ts`, `te`, the pattern matched last in
this token, the variables; `bad`: `stack` (of 5 elements, parser_macros.h:345) has overflowed or was popped while empty. -/
structure ECfg where
  m : Nat
  q : State := []
  stack : List (Nat × State) := []
  p : Nat := 0
  ts : Nat := 0
  te : Nat := 0
  acc : Option Nat := none
  x : EData := {}
  bad : Bool := false
  deriving DecidableEq, Repr

/-- Goes on after actions that ended with `s`, the state being `q`. -/
def ECfg.goOn (c : ECfg) (q : State) (s : ES) (acc : Option Nat) : ECfg :=
  let c' := { c with p := s.np, te := s.te, x := s.x, acc := none }
  match s.jump with
  | none => { c' with q := q, acc := acc }
  | some (.goto m) => { c' with m := m, q := [] }
  | some (.call m) =>
    if c.stack.length < 5 then { c' with m := m, q := [], stack := (c.m, q) :: c.stack } else { c' with bad := true }
  | some .ret =>
    match c.stack with
    | [] => { c' with bad := true }
    | (m, q') :: r => { c' with m := m, q := q', stack := r }

namespace Multi

def mach (M : Multi) (m : Nat) : EMach := M.machs.getD m ⟨⟨[], [], [], []⟩, [], true⟩

/-- The token ends at `te` with pattern `k`. -/
def finish (M : Multi) (buf : List Byte) (c : ECfg) (ts : Nat) (x : EData) (te k : Nat) : ECfg :=
  ({ c with ts := ts }).goOn [] (M.runEnd buf ts { x := x, np := te, te := te } ((M.mach c.m).ends.getD k .none)) none

/-- No transition from state `c.q` of a scanner at `c.p` (or the end of the buffer).  Leaving actions do not jump. -/
def fallback (M : Multi) (buf : List Byte) (c : ECfg) : Option ECfg :=
  let N := (M.mach c.m).nfa
  match N.accepts c.q with
  | some k => some (M.finish buf c c.ts (M.acts buf c.ts { x := c.x, np := c.p + 1, te := c.te } (N.leaveActs c.q)).x c.p k)
  | none =>
    match c.acc with
    | some k => some (M.finish buf c c.ts c.x c.te k)
    | none => none

/-- One character, or one decision at the end of a token.  `none`: the parser stops. -/
def step (M : Multi) (buf : List Byte) (c : ECfg) : Option ECfg :=
  if c.bad then none else
  let K := M.mach c.m
  let start := c.q.isEmpty
  match (buf[c.p]?).bind fun b => K.nfa.delta c.q b.toNat (condAt buf c.p c.x.d) with
  | none => if start || !K.scanner then none else M.fallback buf c
  | some (q', as) =>
    let ts := if K.scanner && start then c.p else c.ts
    let k? := if K.scanner then K.nfa.accepts q' else none
    let last := K.scanner && K.nfa.isLast q'
    let te := if k?.isSome && !last then c.p + 1 else c.te
    let s := M.acts buf ts { x := c.x, np := c.p + 1, te := te } as
    if s.jump.isSome then some (({ c with ts := ts }).goOn (if last then [] else q') s none)
    else if last then some (M.finish buf c ts s.x s.np (k?.getD 0))
    else some (({ c with ts := ts }).goOn q' s (if k?.isSome then k? else if start then none else c.acc))

def run (M : Multi) (buf : List Byte) : Nat → ECfg → ECfg
  | 0, c => c
  | n + 1, c => match M.step buf c with | none => c | some c' => run M buf n c'

end Multi

/-- Values that a parse function finds in the variables that `init` and `%% write init` do not assign. -/
structure ELeft where
  l : Leftover := {}
  qlangs : List Nat := []

/-- `init`, parser_macros.h:417-429, and `%% write init` (`ts = te = 0, act = 0, top = 0`), the parser starting with
machine `m`. -/
def einit (m : Nat) (l : ELeft) : ECfg :=
  { m := m, x := { d := { lastLs := l.l.lastLs, lastLcc := l.l.lastLcc, lastWlc := l.l.lastWlc, queue := l.l.queue }, qlangs := l.qlangs } }

/-- Steps allowed for a buffer of `n` bytes (the parsers stop before they are used up, see EmbedSafe.lean). -/
def efuel (n : Nat) : Nat := (n + 2) * (2 * n + 8)

def eexec (M : Multi) (m : Nat) (l : ELeft) (buf : List Byte) : ECfg := M.run buf (efuel buf.length) (einit m l)

/-- A callback with its language. -/
structure ERep where
  lang : Nat
  kind : Kind
  s : Nat
  e : Nat
  deriving DecidableEq, Repr

def pairUp : List Nat → List Rep → List ERep
  | l :: ls, r :: rs => ⟨l, r.kind, r.s, r.e⟩ :: pairUp ls rs
  | _, _ => []

/-- The variables when `parse_<lang>(buffer, length, 1, ...)` returns: after `process_last_line(<lang>)`. -/
def EParser.final (P : EParser) (M : Multi) (l : ELeft) (buf : List Byte) : EData :=
  let x := (eexec M P.line l buf).x
  x.upd 0 (x.d.processLastLine buf.length)

/-- The line callbacks of `parse_<lang>(buffer, length, 1, ...)`, in order. -/
def EParser.reports (P : EParser) (l : ELeft) (buf : List Byte) : List ERep :=
  let x := P.final P.multi l buf
  pairUp x.langs x.d.out

/-- The entity callbacks of `parse_<lang>(buffer, length, 0, ...)`: language, entity, start, end. -/
def EParser.entityReports (P : EParser) (l : ELeft) (buf : List Byte) : List (Nat × Ent × Nat × Nat) :=
  let x := (eexec P.multi P.entity l buf).x
  List.zip x.elangs x.d.ents

end Ohcount.Ragel
