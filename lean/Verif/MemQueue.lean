import Verif.RagelHistory
import Verif.RagelEmbed
/-
The queue of callbacks of src/parser_macros.h in memory: a linked list of blocks from `malloc`, with its first and last item in the static
variables `callback_list_head` and `callback_list_tail`.  `Ragel.lean` and `RagelEmbed.lean` take the queue for a Lean list; here the
parsers run with the list in memory, and using what is not allocated has no result.
-/

namespace Ohcount.Queue

open Ragel

/-- An address; 0 is NULL. -/
abbrev Ptr := Nat

/-- `lang` (a number of the parser's table of languages), `entity`, `s` and `e` of a `Callback`, src/parser_macros.h:16-41.  `udata`, which
is passed on, is left out. -/
abbrev Item := Nat × Rep

/-- A block of memory: a `Callback`, with its `next`, or something of the rest of the program. -/
inductive Block where
  | item (r : Item) (next : Ptr)
  | other

/-- The allocated blocks and `callback_list_head`, `callback_list_tail`, src/parser_macros.h:44-47. -/
structure Heap where
  mem : Ptr → Option Block
  head : Ptr := 0
  tail : Ptr := 0

/-- A piece of a program.  No result: NULL or a block that is not an allocated `Callback` is read, written or freed, or the program does
not stop. -/
abbrev QM := StateT Heap Option

def put (m : Ptr → Option Block) (p : Ptr) (b : Option Block) : Ptr → Option Block := fun a => if a = p then b else m a

/-- How `malloc` chooses an address. -/
abbrev Alloc := (Ptr → Option Block) → Ptr

/-- Only finitely many blocks are allocated. -/
def Finite (m : Ptr → Option Block) : Prop := ∃ n, ∀ a, n ≤ a → m a = none

/-- `malloc` gives addresses other than NULL that are not in use. -/
def Fresh (al : Alloc) : Prop := ∀ m, Finite m → al m ≠ 0 ∧ m (al m) = none

/-- `malloc`, which does not fail, and the assignments to the fields, src/parser_macros.h:71-79. -/
def malloc (al : Alloc) (r : Item) : QM Ptr := fun h => some (al h.mem, { h with mem := put h.mem (al h.mem) (some (.item r 0)) })

def getItem (p : Ptr) : QM (Item × Ptr) := fun h => match h.mem p with
  | some (.item r n) => some ((r, n), h)
  | _ => none

def setNext (p n : Ptr) : QM Unit := fun h => match h.mem p with
  | some (.item r _) => some ((), { h with mem := put h.mem p (some (.item r n)) })
  | _ => none

def free (p : Ptr) : QM Unit := fun h => match h.mem p with
  | some (.item _ _) => some ((), { h with mem := put h.mem p none })
  | _ => none

def getHead : QM Ptr := fun h => some (h.head, h)
def getTail : QM Ptr := fun h => some (h.tail, h)
def setHead (p : Ptr) : QM Unit := fun h => some ((), { h with head := p })
def setTail (p : Ptr) : QM Unit := fun h => some ((), { h with tail := p })

/-- `enqueue`, src/parser_macros.h:70-88. -/
def enqueue (al : Alloc) (r : Item) : QM Unit := do
  let item ← malloc al r
  let head ← getHead
  if head = 0 then
    setHead item
    setTail item
  else
    let tail ← getTail
    setNext tail item
    setTail item

/-- The loop of `free_queue`, src/parser_macros.h:92-97. -/
def freeFrom (p : Ptr) : QM Unit := do
  if p = 0 then pure () else
    let i ← getItem p
    free p
    freeFrom i.2
partial_fixpoint

/-- `free_queue`, src/parser_macros.h:91-100. -/
def freeQueue : QM Unit := do
  let head ← getHead
  freeFrom head
  setHead 0
  setTail 0

/-- The action `enqueue` on the queue, common.rl:32-34. -/
def clear : QM Unit := do
  let head ← getHead
  if head ≠ 0 then
    freeQueue
    setHead 0
    setTail 0
  else
    setHead 0
    setTail 0

/-- The loop of the action `commit`, common.rl:43-45: the callbacks made.  The callback is taken not to call a parser. -/
def callsFrom (p : Ptr) : QM (List Item) := do
  if p = 0 then pure [] else
    let i ← getItem p
    let r ← callsFrom i.2
    pure (i.1 :: r)
partial_fixpoint

/-- The action `commit` on the queue, common.rl:43-46: the callbacks made. -/
def commitQueue : QM (List Item) := do
  let head ← getHead
  let r ← callsFrom head
  freeQueue
  pure r

/-! ### The parsers with the queue in memory

The fields `queue` of `Data` and `qlangs` of `EData` are not used here. -/

/-- The action `enqueue`, common.rl:30-39. -/
def enqueueAct (d : Data) : QM Data := do
  clear
  pure { d with inq := true, lastLs := d.ls, lastLcc := d.lcc, lastWlc := d.wlc }

/-- `Data.emit` for the language `l`: `enqueue(lang, entity, cint(line_start), cint(p), userdata)` or the same callback at once,
src/parser_macros.h:169-191. -/
def emit (al : Alloc) (l : Nat) (d : Data) (q : Bool) (k : Kind) (s : Option Nat) (e : Nat) : QM Data :=
  match s with
  | none => pure { d with ub := true }
  | some s =>
    if q then do
      enqueue al (l, ⟨k, s, e⟩)
      pure d
    else pure { d with out := d.out ++ [⟨k, s, e⟩] }

/-- `std_internal_newline`, src/parser_macros.h:169-191. -/
def internalNewline (al : Alloc) (l : Nat) (d : Data) (p : Nat) : QM Data := do
  let d' ← if Data.after p d.ls then emit al l d d.inq d.kind d.ls p else pure d
  pure { d' with wlc := false, lcc := false, ls := some p }

/-- The action `commit`, common.rl:41-49. -/
def commitAct (d : Data) : QM Data :=
  if d.inq then do
    let r ← commitQueue
    pure { d with out := d.out ++ r.map (·.2), inq := false }
  else pure d

/-- `Machine.callback`.  All cases but one leave the queue alone. -/
def callback (al : Alloc) (M : Machine) (d : Data) (p ts te : Nat) : QM Data :=
  match M.op d.ent with
  | .internalNewline => internalNewline al 0 d p
  | _ => pure (M.callback d p ts te)

/-- `Machine.act`. -/
def act (al : Alloc) (M : Machine) (ts te : Nat) (s : Data × Nat) (a : Act) : QM (Data × Nat) :=
  match a with
  | .enqueue => do
    let d ← enqueueAct s.1
    pure (d, s.2)
  | .commit => do
    let d ← commitAct s.1
    pure (d, s.2)
  | .cb => do
    let d ← callback al M s.1 (s.2 - 1) ts te
    pure (d, s.2)
  | a => pure (M.act ts te s a)

/-- `Machine.acts`. -/
def acts (al : Alloc) (M : Machine) (ts te : Nat) : Data × Nat → List Act → QM (Data × Nat)
  | s, [] => pure s
  | s, a :: r => do
    let s ← act al M ts te s a
    acts al M ts te s r

/-- `Machine.runEnd`. -/
def runEnd (al : Alloc) (M : Machine) (d : Data) (ts te k : Nat) : QM Data :=
  match M.ends.getD k .none with
  | .cb => callback al M d (te - 1) ts te
  | _ => pure (M.runEnd d ts te k)

/-- `Machine.finish`. -/
def finish (al : Alloc) (M : Machine) (c : Cfg) (d : Data) (te k : Nat) : QM Cfg := do
  let d ← runEnd al M d c.ts te k
  pure { c with q := [], p := te, te := te, acc := none, d := d }

/-- `Machine.fallback`. -/
def fallback (al : Alloc) (M : Machine) (c : Cfg) : QM (Option Cfg) :=
  match M.nfa.accepts c.q with
  | some k => do
    let s ← acts al M c.ts c.te (c.d, c.p + 1) (M.nfa.leaveActs c.q)
    let c ← finish al M c s.1 c.p k
    pure (some c)
  | none =>
    match c.acc with
    | some k => do
      let c' ← finish al M c c.d c.te k
      pure (some { c' with backs := c.backs ++ [(c.te, c.p)] })
    | none => pure none

/-- `Machine.step`. -/
def step (al : Alloc) (M : Machine) (buf : List Byte) (c : Cfg) : QM (Option Cfg) :=
  match buf[c.p]? with
  | none => if c.q.isEmpty then pure none else fallback al M c
  | some b =>
    match M.nfa.delta c.q b.toNat (condAt buf c.p c.d) with
    | none => if c.q.isEmpty then pure none else fallback al M c
    | some (q', as) => do
      let ts := if c.q.isEmpty then c.p else c.ts
      let k? := M.nfa.accepts q'
      let te := if k?.isSome then c.p + 1 else c.te
      let acc := if k?.isSome then k? else if c.q.isEmpty then none else c.acc
      let r ← acts al M ts te (c.d, c.p + 1) as
      let raw := if !c.q.isEmpty && lineEnd buf c.p && !as.contains .cb then c.raw ++ [c.p] else c.raw
      if M.nfa.isLast q' then do
        let c' ← finish al M { c with ts := ts, raw := raw } r.1 r.2 (k?.getD 0)
        pure (some c')
      else pure (some { c with q := q', p := r.2, ts := ts, te := te, acc := acc, d := r.1, raw := raw })

/-- `Machine.run`. -/
def run (al : Alloc) (M : Machine) (buf : List Byte) : Nat → Cfg → QM Cfg
  | 0, c => pure c
  | n + 1, c => do
    match ← step al M buf c with
    | none => pure c
    | some c' => run al M buf n c'

/-! #### Parsers with embedded languages -/

/-- `EData.actCommit`, common.rl:41-49. -/
def ecommit (x : EData) : QM EData :=
  if x.d.inq then do
    let r ← commitQueue
    pure { x with d := { x.d with out := x.d.out ++ r.map (·.2), inq := false }, langs := x.langs ++ r.map (·.1) }
  else pure x

/-- `Multi.callback`. -/
def ecallback (al : Alloc) (M : Multi) (buf : List Byte) (l : Nat) (ts : Nat) (s : ES) : QM ES :=
  match M.op l s.x.d.ent with
  | .internalNewline => do
    let d ← internalNewline al l s.x.d (s.np - 1)
    pure { s with x := s.x.upd l d }
  | .embInternalNewline => do
    let d ← internalNewline al (s.x.embLang l) s.x.d (s.np - 1)
    pure { s with x := { s.x.upd (s.x.embLang l) d with seen := none } }
  | _ => pure (M.callback buf l ts s)

/-- `Multi.act`. -/
def eact (al : Alloc) (M : Multi) (buf : List Byte) (ts : Nat) (s : ES) (a : Act) : QM ES :=
  match a with
  | .enqueue => do
    let d ← enqueueAct s.x.d
    pure { s with x := { s.x with d := d } }
  | .commit => do
    let x ← ecommit s.x
    pure { s with x := x }
  | .cb => ecallback al M buf 0 ts s
  | .emb (.cb l) => ecallback al M buf l ts s
  | .emb .eofCommit =>
    if buf.length < s.np then do
      let x ← ecommit s.x
      pure { s with x := x }
    else pure s
  | a => pure (M.act buf ts s a)

/-- `Multi.acts`. -/
def eacts (al : Alloc) (M : Multi) (buf : List Byte) (ts : Nat) : ES → List Act → QM ES
  | s, [] => pure s
  | s, a :: r => do
    let s' ← eact al M buf ts s a
    if s'.jump.isSome then pure s' else eacts al M buf ts s' r

/-- `Multi.runEnd`. -/
def erunEnd (al : Alloc) (M : Multi) (buf : List Byte) (ts : Nat) (s : ES) (e : EEnd) : QM ES :=
  match e with
  | .cb l => ecallback al M buf l ts s
  | e => pure (M.runEnd buf ts s e)

/-- `Multi.finish`. -/
def efinish (al : Alloc) (M : Multi) (buf : List Byte) (c : ECfg) (ts : Nat) (x : EData) (te k : Nat) : QM ECfg := do
  let s ← erunEnd al M buf ts { x := x, np := te, te := te } ((M.mach c.m).ends.getD k .none)
  pure (({ c with ts := ts }).goOn [] s none)

/-- `Multi.fallback`. -/
def efallback (al : Alloc) (M : Multi) (buf : List Byte) (c : ECfg) : QM (Option ECfg) :=
  let N := (M.mach c.m).nfa
  match N.accepts c.q with
  | some k => do
    let s ← eacts al M buf c.ts { x := c.x, np := c.p + 1, te := c.te } (N.leaveActs c.q)
    let c' ← efinish al M buf c c.ts s.x c.p k
    pure (some c')
  | none =>
    match c.acc with
    | some k => do
      let c' ← efinish al M buf c c.ts c.x c.te k
      pure (some c')
    | none => pure none

/-- `Multi.step`. -/
def estep (al : Alloc) (M : Multi) (buf : List Byte) (c : ECfg) : QM (Option ECfg) :=
  if c.bad then pure none else
  let K := M.mach c.m
  let start := c.q.isEmpty
  match (buf[c.p]?).bind fun b => K.nfa.delta c.q b.toNat (condAt buf c.p c.x.d) with
  | none => if start || !K.scanner then pure none else efallback al M buf c
  | some (q', as) => do
    let ts := if K.scanner && start then c.p else c.ts
    let k? := if K.scanner then K.nfa.accepts q' else none
    let last := K.scanner && K.nfa.isLast q'
    let te := if k?.isSome && !last then c.p + 1 else c.te
    let s ← eacts al M buf ts { x := c.x, np := c.p + 1, te := te } as
    if s.jump.isSome then pure (some (({ c with ts := ts }).goOn (if last then [] else q') s none))
    else if last then do
      let c' ← efinish al M buf c ts s.x s.np (k?.getD 0)
      pure (some c')
    else pure (some (({ c with ts := ts }).goOn q' s (if k?.isSome then k? else if start then none else c.acc)))

/-- `Multi.run`. -/
def erun (al : Alloc) (M : Multi) (buf : List Byte) : Nat → ECfg → QM ECfg
  | 0, c => pure c
  | n + 1, c => do
    match ← estep al M buf c with
    | none => pure c
    | some c' => erun al M buf n c'

/-! ### What the queue holds -/

/-- The items of the list from `p` on, with their addresses. -/
def Chain (m : Ptr → Option Block) : Ptr → List (Ptr × Item) → Prop
  | p, [] => p = 0
  | p, x :: t => p = x.1 ∧ x.1 ≠ 0 ∧ ∃ n, m x.1 = some (.item x.2 n) ∧ Chain m n t

/-- The address of the last item, or NULL. -/
def lastOf : List (Ptr × Item) → Ptr
  | [] => 0
  | [x] => x.1
  | _ :: y :: t => lastOf (y :: t)

/-- The memory is `m0` and, apart from it, the queue, which holds `items`; the static variables point to its first and its last item. -/
def Holds (m0 : Ptr → Option Block) (h : Heap) (items : List Item) : Prop :=
  ∃ l : List (Ptr × Item), l.map (·.2) = items ∧ Chain h.mem h.head l ∧ (l.map (·.1)).Nodup ∧ h.tail = lastOf l ∧
    (∀ a ∈ l.map (·.1), m0 a = none) ∧ (∀ a, a ∉ l.map (·.1) → h.mem a = m0 a) ∧ Finite h.mem

theorem Finite.put {m : Ptr → Option Block} (h : Finite m) (p : Ptr) (b : Option Block) : Finite (put m p b) := by
  obtain ⟨n, h⟩ := h
  refine ⟨n + p + 1, fun a ha => ?_⟩
  have key : ∀ n p a : Nat, n + p + 1 ≤ a → a ≠ p ∧ n ≤ a := by omega
  unfold Queue.put
  rw [if_neg (key n p a ha).1]
  exact h a (key n p a ha).2

theorem Holds.finite {m0 : Ptr → Option Block} {h : Heap} {items : List Item} (hh : Holds m0 h items) : Finite m0 := by
  obtain ⟨l, _, _, _, _, h0, hr, n, hf⟩ := hh
  refine ⟨n, fun a ha => ?_⟩
  by_cases hm : a ∈ l.map (·.1)
  · exact h0 a hm
  · rw [← hr a hm]
    exact hf a ha

theorem Chain.put {m : Ptr → Option Block} {a : Ptr} {b : Option Block} : ∀ {l : List (Ptr × Item)} {p : Ptr}, Chain m p l → a ∉ l.map (·.1) →
    Chain (put m a b) p l
  | [], _, h, _ => h
  | x :: t, p, ⟨h1, h2, n, h3, h4⟩, ha => by
    simp only [List.map_cons, List.mem_cons, not_or] at ha
    refine ⟨h1, h2, n, ?_, Chain.put h4 ha.2⟩
    unfold Queue.put
    rw [if_neg (Ne.symm ha.1)]
    exact h3

/-- An item is put at the end of a list. -/
theorem Chain.snoc {m : Ptr → Option Block} {a : Ptr} {r : Item} : ∀ {l : List (Ptr × Item)} {p : Ptr}, Chain m p l → l ≠ [] → (l.map (·.1)).Nodup →
    a ∉ l.map (·.1) → a ≠ 0 → m a = some (.item r 0) →
    ∃ x : Item, m (lastOf l) = some (.item x 0) ∧ Chain (Queue.put m (lastOf l) (some (.item x a))) p (l ++ [(a, r)])
  | [], _, _, hl, _, _, _, _ => absurd rfl hl
  | [x], p, ⟨h1, h2, n, h3, h4⟩, _, hn, ha, h0, hm => by
    have hn0 : n = 0 := h4
    subst hn0
    refine ⟨x.2, h3, h1, h2, a, by simp [Queue.put, lastOf], rfl, h0, 0, ?_, rfl⟩
    have : a ≠ x.1 := by simpa using ha
    show (if a = x.1 then _ else m a) = _
    rw [if_neg this]
    exact hm
  | x :: y :: t, p, ⟨h1, h2, n, h3, h4⟩, _, hn, ha, h0, hm => by
    simp only [List.map_cons, List.nodup_cons] at hn
    have ha' : a ∉ (y :: t).map (·.1) := fun h => ha (List.mem_cons_of_mem _ h)
    obtain ⟨z, hz, hc⟩ := Chain.snoc (l := y :: t) h4 (by simp) (by simpa using hn.2) ha' h0 hm
    refine ⟨z, hz, h1, h2, n, ?_, hc⟩
    have hx : x.1 ≠ lastOf (y :: t) := by
      intro he
      apply hn.1
      rw [he]
      have : ∀ (y : Ptr × Item) (t : List (Ptr × Item)), lastOf (y :: t) ∈ (y :: t).map (·.1) := by
        intro y t
        induction t generalizing y with
        | nil => simp [lastOf]
        | cons z t ih => exact List.mem_cons_of_mem _ (ih z)
      simpa using this y t
    show Queue.put m (lastOf (y :: t)) _ x.1 = _
    unfold Queue.put
    rw [if_neg hx]
    exact h3

theorem lastOf_mem : ∀ {l : List (Ptr × Item)}, l ≠ [] → lastOf l ∈ l.map (·.1)
  | [], h => absurd rfl h
  | [_], _ => by simp [lastOf]
  | _ :: y :: t, _ => List.mem_cons_of_mem _ (lastOf_mem (l := y :: t) (by simp))

theorem lastOf_snoc (y : Ptr × Item) : ∀ l : List (Ptr × Item), lastOf (l ++ [y]) = y.1
  | [] => rfl
  | [_] => rfl
  | _ :: z :: t => lastOf_snoc y (z :: t)

theorem enqueue_ok {al : Alloc} (hal : Fresh al) {m0 : Ptr → Option Block} {h : Heap} {items : List Item} (hh : Holds m0 h items) (r : Item) :
    ∃ h', enqueue al r h = some ((), h') ∧ Holds m0 h' (items ++ [r]) := by
  obtain ⟨l, he, hc, hn, ht, h0, hr, hf⟩ := hh
  obtain ⟨a0, am⟩ := hal h.mem hf
  generalize hA : al h.mem = a at a0 am
  have hal' : a ∉ l.map (·.1) := by
    intro hm
    have : ∀ {l : List (Ptr × Item)} {p : Ptr}, Chain h.mem p l → ∀ b ∈ l.map (·.1), h.mem b ≠ none := by
      intro l
      induction l with
      | nil => intro p _ b hb; cases hb
      | cons x t ih =>
        rintro p ⟨_, _, n, h3, h4⟩ b hb
        rcases List.mem_cons.1 hb with rfl | hb
        · rw [h3]; simp
        · exact ih h4 b hb
    exact this hc a hm am
  have hm0 : m0 a = none := by rw [← hr a hal']; exact am
  have hput : put h.mem a (some (.item r 0)) a = some (.item r 0) := by simp [put]
  cases l with
  | nil =>
    have hd : h.head = 0 := hc
    refine ⟨⟨put h.mem a (some (.item r 0)), a, a⟩, ?_, [(a, r)], by simp [← he], ⟨rfl, a0, 0, hput, rfl⟩, by simp, rfl, by simpa using hm0, ?_, hf.put _ _⟩
    · simp [enqueue, malloc, getHead, setHead, setTail, bind, StateT.bind, hA, hd, Option.bind]
    · intro b hb
      have : b ≠ a := by simpa using hb
      simp only [put]
      rw [if_neg this]
      exact hr b (by simp)
  | cons x t =>
    have hd : h.head ≠ 0 := by rw [hc.1]; exact hc.2.1
    have hc' : Chain (put h.mem a (some (.item r 0))) h.head (x :: t) := hc.put hal'
    obtain ⟨z, hz, hcz⟩ := hc'.snoc (by simp) hn hal' a0 hput
    refine ⟨⟨put (put h.mem a (some (.item r 0))) (lastOf (x :: t)) (some (.item z a)), h.head, a⟩, ?_, (x :: t) ++ [(a, r)], by rw [List.map_append, he]; rfl,
      hcz, ?_, (lastOf_snoc (a, r) (x :: t)).symm, ?_, ?_, (hf.put _ _).put _ _⟩
    · simp [enqueue, malloc, getHead, getTail, setNext, setTail, bind, StateT.bind, hA, hd, Option.bind, ht, hz]
    · rw [List.map_append, List.nodup_append]
      refine ⟨hn, by simp, ?_⟩
      intro b hb c hcb
      have : c = a := by simpa using hcb
      rw [this]
      intro e
      exact hal' (e ▸ hb)
    · intro b hb
      rw [List.map_append, List.mem_append] at hb
      rcases hb with hb | hb
      · exact h0 b hb
      · have : b = a := by simpa using hb
        rw [this]; exact hm0
    · intro b hb
      rw [List.map_append, List.mem_append, not_or] at hb
      have h1 : b ≠ a := by simpa using hb.2
      have h2 : b ≠ lastOf (x :: t) := fun e => hb.1 (e ▸ lastOf_mem (by simp))
      simp only [put]
      rw [if_neg h2, if_neg h1]
      exact hr b hb.1

theorem freeFrom_ok {m0 : Ptr → Option Block} : ∀ (l : List (Ptr × Item)) (h : Heap) (p : Ptr), Chain h.mem p l → (l.map (·.1)).Nodup →
    (∀ a ∈ l.map (·.1), m0 a = none) → (∀ a, a ∉ l.map (·.1) → h.mem a = m0 a) →
    freeFrom p h = some ((), { h with mem := m0 }) := by
  intro l
  induction l with
  | nil =>
    intro h p hp _ _ hr
    have hp : p = 0 := hp
    have : h.mem = m0 := funext fun a => hr a (by simp)
    rw [freeFrom, if_pos hp, ← this]
    rfl
  | cons x t ih =>
    rintro h p ⟨rfl, hx0, n, hx, hc⟩ hn h0 hr
    simp only [List.map_cons, List.nodup_cons] at hn
    rw [freeFrom, if_neg hx0]
    have e1 : (getItem x.1 >>= fun i => free x.1 >>= fun _ => freeFrom i.2) h = freeFrom n { h with mem := put h.mem x.1 none } := by
      simp [bind, StateT.bind, getItem, free, hx, Option.bind]
    rw [e1]
    refine ih _ n (hc.put hn.1) hn.2 (fun a ha => h0 a (List.mem_cons_of_mem _ ha)) ?_
    intro a ha
    simp only [put]
    split
    · next e => rw [e]; exact (h0 x.1 (by simp)).symm
    · next e => exact hr a (by simp [e]; simpa using ha)

theorem freeQueue_ok {m0 : Ptr → Option Block} {h : Heap} {items : List Item} (hh : Holds m0 h items) : freeQueue h = some ((), ⟨m0, 0, 0⟩) := by
  obtain ⟨l, _, hc, hn, _, h0, hr, _⟩ := hh
  have := freeFrom_ok l h h.head hc hn h0 hr
  simp [freeQueue, bind, StateT.bind, getHead, setHead, setTail, this, Option.bind]

theorem Holds.nil {m0 : Ptr → Option Block} (hm : Finite m0) : Holds m0 ⟨m0, 0, 0⟩ [] := ⟨[], rfl, rfl, by simp, rfl, by simp, fun _ _ => rfl, hm⟩

theorem clear_ok {m0 : Ptr → Option Block} {h : Heap} {items : List Item} (hh : Holds m0 h items) : clear h = some ((), ⟨m0, 0, 0⟩) := by
  have hf := freeQueue_ok hh
  by_cases hd : h.head = 0
  · have : h.mem = m0 := by
      obtain ⟨l, _, hc, _, _, _, hr, _⟩ := hh
      cases l with
      | nil => exact funext fun a => hr a (by simp)
      | cons x t => exact absurd (hc.1 ▸ hd) hc.2.1
    simp [clear, bind, StateT.bind, getHead, setHead, setTail, hd, Option.bind, this]
  · simp [clear, bind, StateT.bind, getHead, setHead, setTail, hd, Option.bind, hf]

theorem callsFrom_ok (h : Heap) : ∀ (l : List (Ptr × Item)) (p : Ptr), Chain h.mem p l → callsFrom p h = some (l.map (·.2), h) := by
  intro l
  induction l with
  | nil =>
    intro p hp
    have hp : p = 0 := hp
    rw [callsFrom, if_pos hp]
    rfl
  | cons x t ih =>
    rintro p ⟨rfl, hx0, n, hx, hc⟩
    rw [callsFrom, if_neg hx0]
    have := ih n hc
    simp [bind, StateT.bind, getItem, hx, Option.bind, this, pure, StateT.pure]

theorem commit_ok {m0 : Ptr → Option Block} {h : Heap} {items : List Item} (hh : Holds m0 h items) :
    commitQueue h = some (items, ⟨m0, 0, 0⟩) := by
  have hf := freeQueue_ok hh
  obtain ⟨l, he, hc, _⟩ := hh
  have := callsFrom_ok h l h.head hc
  simp [commitQueue, bind, StateT.bind, getHead, Option.bind, this, hf, pure, StateT.pure, he]

end Ohcount.Queue
