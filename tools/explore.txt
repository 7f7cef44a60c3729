import Verif.Gram.All
import Verif.RagelExact
import Verif.RagelLexFast
import Verif.LexisTable
import Verif.RagelEnts
import Verif.RagelQueue
open Ohcount Ohcount.Ragel Ohcount.Gram

def scanners : List (String × Scanner) := [--SCANNERS--]

def masksOf (m : Nfa) : List Nat := ((m.start ++ m.follow.flatten).map (·.mask)).eraseDups

def repsOf (ms : List Nat) : List Nat × List Nat := Id.run do
  let sig := fun (b : Nat) => (bk b, ms.map fun (x : Cls) => Cls.has x b)
  let mut seen : List ((BK × List Bool) × Nat) := []
  let mut rep : List Nat := []
  for b in List.range 256 do
    let s := sig b
    match seen.find? fun x => x.1 == s with
    | some x => rep := x.2 :: rep
    | none => seen := (s, b) :: seen; rep := b :: rep
  return (rep.reverse, (seen.map (·.2)).reverse)

def hasFhold (m : Nfa) : Bool :=
  (m.start ++ m.follow.flatten).any fun e => e.acts.any fun x => match x.2 with | .fhold _ => true | _ => false

/-- The rows of the automaton, by search from the start state. -/
partial def rowsOf (m : Nfa) (reps : List Nat) (rel : List Nat := []) : List Row := Id.run do
  let fh := hasFhold m
  let mut qs : Array State := #[[]]
  let mut rows : Array Row := #[]
  let mut i := 0
  while i < qs.size do
    let q := qs[i]!
    i := i + 1
    let mut trs : Array Tr := #[]
    for b in reps do
      for t in subs (relConds m q b) do
        let tgt : Option Tgt ← match m.delta q b (cvOf t) with
          | none => pure none
          | some (q', as) =>
            let last := m.isLast q'
            let mut j := 0
            if !last then
              match qs.findIdx? (· == q') with
              | some k => j := k
              | none => j := qs.size; qs := qs.push q'
            pure (some ⟨j, as, m.accepts q', last⟩)
        let e : Tr := ⟨if fh || rel.contains b then b else 256, bk b, b == 13 && cvOf t .crAlone, tgt⟩
        if !trs.contains e then trs := trs.push e
    rows := rows.push ⟨q, m.accepts q, m.leaveActs q, trs.toList⟩
  return rows.toList

partial def explore {α : Type} [BEq α] [Repr α] (rows : List Row) (init : α) (succ : Succ α)
    (eofOk : EofOk α) : Except String (List (List α)) := Id.run do
  let rows := rows.toArray
  let mut tab : Array (Array α) := rows.map fun _ => #[]
  let mut todo : List (Nat × α) := [(0, init)]
  tab := tab.set! 0 #[init]
  let mut fuel := 200000
  while fuel > 0 do
    fuel := fuel - 1
    match todo with
    | [] => fuel := 0
    | (i, a) :: rest =>
      todo := rest
      let some r := rows[i]? | return .error "row"
      if !eofOk r.q.isEmpty r.acc r.leave a then return .error s!"eof {reprStr r.q} {reprStr a}"
      for e in r.trs do
        match succ r.q.isEmpty r.acc r.leave a e.b e.k e.cr (e.tgt.map fun t => (t.acts, t.acc, t.last)) with
        | none => return .error s!"fail {reprStr r.q} {reprStr a} {reprStr e}"
        | some none => pure ()
        | some (some y) =>
          match e.tgt with
          | none => return .error "target"
          | some t => if !(tab[t.j]!.any fun z => z == y) then
              tab := tab.modify t.j (·.push y)
              todo := todo ++ [(t.j, y)]
  return .ok (tab.toList.map (·.toList))

class Show (α : Type) where
  sh : α → String
open Show
instance : Show Nat := ⟨toString⟩
instance : Show Bool := ⟨toString⟩
instance {α : Type} [Show α] : Show (List α) := ⟨fun l => "[" ++ ",".intercalate (l.map sh) ++ "]"⟩
instance {α : Type} [Show α] : Show (Option α) := ⟨fun | none => "none" | some x => "some " ++ sh x⟩
instance {α β : Type} [Show α] [Show β] : Show (α × β) := ⟨fun x => "(" ++ sh x.1 ++ "," ++ sh x.2 ++ ")"⟩
instance : Show Ent := ⟨fun | .newline => ".newline" | .internalNl => ".internalNl" | .checkBlank => ".checkBlank" | .own i => s!"(.own {i})"⟩
instance : Show Cond := ⟨fun | .crAlone => ".crAlone" | .nestZero => ".nestZero" | .nested => ".nested" | .noCode => ".noCode" | .someCode => ".someCode" | .startsLine => ".startsLine" | .midLine => ".midLine" | .indLt => ".indLt" | .indGe => ".indGe"⟩
instance : Show Emb := ⟨fun | .cb l => s!"(.cb {l})" | .outry => ".outry" | .saw l => s!"(.saw {l})" | .sawCall l m => s!"(.sawCall {l} {m})" | .back => ".back" | .ret => ".ret" | .goto m => s!"(.goto {m})" | .indInc => ".indInc" | .indRes => ".indRes" | .indSet => ".indSet" | .eofCommit => ".eofCommit"⟩
instance : Show Act := ⟨fun
  | .setEnt e => s!".setEnt {sh e}" | .code => ".code" | .comment => ".comment" | .enqueue => ".enqueue"
  | .commit => ".commit" | .cb => ".cb" | .nestRes => ".nestRes" | .nestInc => ".nestInc" | .nestDec => ".nestDec"
  | .fhold i => s!".fhold {i}" | .emb e => s!".emb {sh e}"⟩
instance : Show Edge := ⟨fun e => s!"⟨{e.to},{sh (e.mask : Nat)},{sh e.conds},{sh e.acts},{e.hi},{e.lo}⟩"⟩
instance : Show Nfa := ⟨fun m => s!"⟨{sh m.start},{sh m.follow},{sh m.final},{sh m.bounds}⟩"⟩
instance : Show SA := ⟨fun a => s!"⟨{a.adv},{a.fh},{a.touched},{sh a.ent},{sh a.acc},{sh a.held}⟩"⟩
instance : Show BK := ⟨fun | .ws => ".ws" | .lf => ".lf" | .ff => ".ff" | .cr => ".cr" | .vt => ".vt" | .other => ".other"⟩
instance : Show Tgt := ⟨fun t => s!"⟨{t.j},{sh t.acts},{sh t.acc},{t.last}⟩"⟩
instance : Show Tr := ⟨fun t => s!"⟨{t.b},{sh t.k},{t.cr},{sh t.tgt}⟩"⟩
instance : Show Row := ⟨fun r => s!"⟨{sh r.q},{sh r.acc},{sh r.leave},{sh r.trs}⟩"⟩

def genNfa : IO Unit := do
  for (n, S) in scanners do
    let ms := masksOf S.nfa
    let (rep, reps) := repsOf ms
    IO.println s!"@@nfa {n}\t{sh S.nfa}"
    IO.println s!"@@masks {n}\t{sh ms}"
    let cs := reps.map fun r => (r, ((List.range 256).filter fun b => rep.getD b 0 == r).foldl (fun a b => a ||| (1 <<< b)) 0)
    IO.println s!"@@cs {n}\t{sh cs}"
    IO.println s!"@@rows {n}\t{sh (rowsOf S.nfa reps)}"

def genS : IO Unit := do
  for (n, S) in scanners do
    let M : Machine := ⟨S.nfa, S.ends, S.sw⟩
    let (_, reps) := repsOf (masksOf M.nfa)
    match explore (rowsOf M.nfa reps) SA.init (SA.succ M) (SA.eofOk M) with
    | .error e => IO.println s!"S {n} FAIL {e}"
    | .ok tab => IO.println s!"@@s {n}\t{sh tab}"


instance : Show BA := ⟨fun a => "⟨" ++ ",".intercalate [sh a.pend, sh a.nb, sh a.nb2, sh a.fl, sh a.owed, sh a.ls, sh a.inq, sh a.unt,
  sh a.inl, sh a.cross, sh a.fg, sh a.fh, sh a.ent, sh a.acc, sh a.accNb, sh a.off, sh a.held, sh a.hn, sh a.bad, sh a.cr] ++ "⟩"⟩

def levels : List Lvl :=
  [(true, true), (true, false), (false, true), (false, false)].flatMap fun (s1, s2) =>
    [(false, false), (true, false), (false, true), (true, true)].map fun (t, r) => ⟨s1, s2, t, r⟩

def genB : IO Unit := do
  for (n, S) in scanners do
    let M : Machine := ⟨S.nfa, S.ends, S.sw⟩
    let (_, reps) := repsOf (masksOf M.nfa)
    let rows := rowsOf M.nfa reps
    let mut done := false
    let mut best : List Lvl := []
    for L in levels do
      -- skip levels implied by one already found
      if !(best.any fun K => (K.s1 || !L.s1) && (K.s2 || !L.s2) && (!K.tame || L.tame) && (!K.noraw || L.noraw)) then
        match explore rows BA.init (BA.succ L M) (BA.eofOk L M) with
        | .error _ => pure ()
        | .ok tab =>
          best := best ++ [L]
          if !done then
            done := true
            IO.println s!"@@b {n}\t{sh tab}"
            IO.println s!"@@lvl {n}\t⟨{L.s1}, {L.s2}, {L.tame}, {L.noraw}⟩"
    if !done then IO.println s!"B {n} FAIL"
    IO.println s!"levels {n} {", ".intercalate (best.map fun L => s!"{if L.s1 then 1 else 0}{if L.s2 then 1 else 0}{if L.tame then "T" else ""}{if L.noraw then "R" else ""}")}"

instance : Show Kind := ⟨fun | .lcode => ".lcode" | .lcomment => ".lcomment" | .lblank => ".lblank"⟩
instance : Show Mode := ⟨fun | .code => ".code" | .inside i => s!"(.inside {i})" | .escaped i => s!"(.escaped {i})" | .escapedCr i => s!"(.escapedCr {i})" | .closing i => s!"(.closing {i})" | .bad => ".bad"⟩
instance : Show RS := ⟨fun r => s!"⟨{sh r.mode},{sh r.pend},{sh r.k},{r.nl},{sh r.mons},{r.top}⟩"⟩
instance : Show DA := ⟨fun r => s!"⟨{sh r.sk},{sh r.ent},{r.inq},{sh r.qk}⟩"⟩
instance : Show CA := ⟨fun a => s!"⟨{sh a.r},{a.cr},{a.lone},{sh a.nx},{sh a.acc},{sh a.snap},{sh a.since},{a.cross},{a.doom},{a.fresh},{sh a.prev},{a.held},{sh a.d}⟩"⟩
instance : Show Construct := ⟨fun c => s!"⟨{sh c.op},{sh c.cl},{sh c.lab},{c.lines},{c.soft},{c.esc},{c.pairs},{c.escNl},{c.escMark},{c.clMark},{c.wsMark},{sh c.opLab},{c.one},{c.last},{c.forbid},{c.plain},{sh c.avoid}⟩"⟩

instance : Inhabited CT := ⟨.leaf⟩
partial def CT.ofArr (a : Array (Nat × List CA)) (i j : Nat) : CT :=
  if i ≥ j then .leaf else let m := (i + j) / 2; let x := a[m]!; .node (ofArr a i m) x.1 x.2 (ofArr a (m + 1) j)
def CT.of (l : List CA) : CT :=
  let a := (l.map fun x => (x.key, x)).toArray.qsort fun x y => x.1 < y.1
  let b := a.foldl (fun (b : Array (Nat × List CA)) x => if h : b.size > 0 then (if b[b.size-1].1 == x.1 then b.set (b.size-1) (x.1, x.2 :: b[b.size-1].2) else b.push (x.1, [x.2])) else b.push (x.1, [x.2])) #[]
  CT.ofArr b 0 b.size
partial def CT.sh : CT → String
  | .leaf => ".leaf"
  | .node l n v r => s!"(.node {CT.sh l} {n} {Show.sh v} {CT.sh r})"
instance : Show CT := ⟨CT.sh⟩
instance : Show CA.FTr := ⟨fun t => s!"⟨{sh t.b},{sh t.k},{t.cr},{t.nl},{sh t.j},{sh t.t}⟩"⟩
instance : Show CA.FRow := ⟨fun t => s!"⟨{t.start},{sh t.acc},{sh t.leave},{sh t.trs}⟩"⟩

def lexes : List (String × Scanner × Lexis) := [--LEXES--]

partial def exploreL (M : Machine) (L : Lexis) (chk hold : Bool) (rows : List Row) : Except String (List (List CA)) := Id.run do
  let rows := rows.toArray
  let mut tab : Array (Array (CA × String)) := rows.map fun _ => #[]
  let mut todo : List (Nat × CA × String) := [(0, CA.init, "")]
  let mut next : List (Nat × CA × String) := []
  tab := tab.set! 0 #[(CA.init, "")]
  let mut fuel := 6000
  while fuel > 0 do
    fuel := fuel - 1
    match todo with
    | [] => if next.isEmpty then return .ok (tab.toList.map fun x => x.toList.map (·.1)) else todo := next.reverse; next := []
    | (i, a, w) :: rest =>
      todo := rest
      let some r := rows[i]? | return .error "row"
      let mut res : List (Option Nat × String × Option (Option (Bool × CA))) := if a.fits none then [(none, w ++ "$", a.eof M L r.q.isEmpty r.acc r.leave)] else []
      for e in r.trs do
        let b := if L.rel.contains e.b then e.b else Lexis.surr e.k
        if a.fits (some (b, e.k, e.cr)) then for s in a.r.feed L b (CA.isNl e.k e.cr) do
          let j := match e.tgt with | some t => if t.last then none else some t.j | none => none
          let y := a.step M L chk hold r.q.isEmpty r.acc r.leave s b e.k e.cr (e.tgt.map fun t => (t.acts, t.acc, t.last))
          -- a token that ends here is followed by a new look at the character if it was not consumed
          let used := match e.tgt with | none => false | some _ => true
          res := (j, if used then w ++ (if L.rel.contains e.b then (Char.ofNat e.b).toString else match e.k with | .ws => " " | .lf => "N" | .ff => "F" | .cr => if e.cr then "R" else "C" | .vt => "V" | .other => "x") else w ++ "|", y) :: res
      for (j, w', y) in res.reverse do
        match y with
        | none => return .error s!"fail after {w} at {w'} : {sh a}"
        | some none => pure ()
        | some (some (z, y)) =>
          let j := if z then 0 else j.getD 99999
          if !(tab[j]!.any fun z => z.1 == y) then
            tab := tab.modify j (·.push (y, w'))
            next := (j, y, w') :: next
  return .error "fuel"

def genL : IO Unit := do
  for (n, S, L) in lexes do
    let M : Machine := ⟨S.nfa, S.ends, S.sw⟩
    let ms := (masksOf M.nfa ++ L.rel.map Cls.chr).eraseDups
    let (rep, reps) := repsOf ms
    let rows := rowsOf M.nfa reps L.rel
    if !L.ok then IO.println s!"L {n} not ok"
    let hold := rows.any fun r => r.trs.any fun e => match e.tgt with | some t => fholds t.acts ≥ 2 | none => false
    let r := match exploreL M L true hold rows with
      | .error _ => (false, exploreL M L false hold rows)
      | x => (true, x)
    match r.2 with
    | .error e => IO.println s!"L {n} FAIL {e}"
    | .ok tab =>
      IO.println s!"@@lchk {n}\t{r.1}"
      IO.println s!"L {n} rows {rows.length} trs {rows.foldl (fun a r => a + r.trs.length) 0} vals {tab.foldl (fun a r => a + r.length) 0} work {(rows.zip tab).foldl (fun a r => a + r.1.trs.length * r.2.length) 0}"
      IO.println s!"@@lex {n}\t{sh L}"
      IO.println s!"@@lhold {n}\t{hold}"
      IO.println s!"@@lmasks {n}\t{sh ms}"
      let cs := reps.map fun r => (r, ((List.range 256).filter fun b => rep.getD b 0 == r).foldl (fun a b => a ||| (1 <<< b)) 0)
      IO.println s!"@@lcs {n}\t{sh cs}"
      IO.println s!"@@lrows {n}\t{sh rows}"
      IO.println s!"@@lfr {n}\t{sh (rows.map (CA.prep L))}"
      IO.println s!"@@ltab {n}\t{sh (tab.map CT.of)}"

def entities : List (String × Scanner) := [--ENTITIES--]

def genE : IO Unit := do
  for (n, S) in entities do
    let m := S.nfa
    IO.println s!"@@ehold {n}\t{!noHold m}"
    IO.println s!"@@eecb {n}\t{allEcb S.machine}"
    IO.println s!"@@eends {n}\t[{", ".intercalate (S.ends.map fun e => match e with | .none => ".none" | .cb => ".cb" | .ecb => ".ecb")}]"
    if !holdOk m then IO.println s!"E {n} hold"
    if !anyByte m then IO.println s!"E {n} any"

instance : Show QA := ⟨fun a => s!"⟨{a.pend},{a.ls},{a.inl},{a.cross},{a.mode},{sh a.ent},{sh a.acc},{a.accIn},{a.off},{a.cr}⟩"⟩

/-- Scanners with a queue. -/
def genQ : IO Unit := do
  for (n, S) in scanners do
    let M : Machine := ⟨S.nfa, S.ends, S.sw⟩
    if (M.nfa.start ++ M.nfa.follow.flatten).any fun e => e.acts.any fun a => a.2 == Act.enqueue then
      let (_, reps) := repsOf (masksOf M.nfa)
      let rows := rowsOf M.nfa reps
      let mut done := false
      let mut why := ""
      for st in [false, true] do
        if !done then
          match explore rows QA.init (QA.succ st M) (QA.eofOk st M) with
          | .error w => why := w
          | .ok tab =>
            done := true
            IO.println s!"@@q {n}\t{sh tab}"
            IO.println s!"@@qst {n}\t{st}"
      IO.println s!"queue {n} {if done then "ok" else "FAIL " ++ why}"

