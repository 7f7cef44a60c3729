import Verif.MemQueueRun
/-
What a parser leaves in the queue: what it found there, if it did not queue anything, and otherwise what it leaves there if it found nothing.
-/

namespace Ohcount.Queue

open Ragel

/-- The variables that a parser does not initialise have the values `l`. -/
def stale (d : Data) (l : Leftover) : Data := { d with lastLs := l.lastLs, lastLcc := l.lastLcc, lastWlc := l.lastWlc, queue := l.queue }

/-- The parser that found `l` has `d` and the one that found nothing has `d'`: either there is no difference, or `l` was not touched. -/
def Rel (l : Leftover) (d d' : Data) : Prop := d = d' ∨ d'.inq = false ∧ d'.queue = [] ∧ d = stale d' l

theorem stale_emit (d : Data) (l : Leftover) (k : Kind) (s : Option Nat) (e : Nat) :
    (stale d l).emit false k s e = stale (d.emit false k s e) l := by
  cases s <;> rfl

theorem emitNow_inq (d : Data) (q : Bool) (k : Kind) (s : Option Nat) (e : Nat) : (d.emit q k s e).inq = d.inq := by
  cases s <;> cases q <;> rfl

/-- Operations that treat untouched variables alike. -/
def Even (l : Leftover) (f : Data → Data) : Prop :=
  ∀ d : Data, d.inq = false → d.queue = [] → (f d).inq = false ∧ (f d).queue = [] ∧ f (stale d l) = stale (f d) l

theorem Even.rel {l : Leftover} {f : Data → Data} (hf : Even l f) {d d' : Data} (h : Rel l d d') : Rel l (f d) (f d') := by
  rcases h with rfl | ⟨h1, h2, rfl⟩
  · exact .inl rfl
  · exact .inr (hf d' h1 h2)

theorem even_mLs (l : Leftover) (ts : Nat) : Even l fun d => d.mLs ts := by
  intro d h1 h2
  have e : ∀ d : Data, d.inq = false → d.deq = d := fun d h => by unfold Data.deq; rw [h]; rfl
  unfold Data.mLs
  dsimp only
  rw [e d h1, e (stale d l) h1]
  exact ⟨h1, h2, rfl⟩

theorem even_mCode (l : Leftover) (ts : Nat) : Even l fun d => d.mCode ts := by
  intro d h1 h2
  have e : ∀ d : Data, d.inq = false → d.deq = d := fun d h => by unfold Data.deq; rw [h]; rfl
  unfold Data.mCode
  dsimp only
  rw [e d h1, e (stale d l) h1]
  exact ⟨h1, h2, rfl⟩

theorem even_actComment (l : Leftover) (ts : Nat) : Even l fun d => d.actComment ts := by
  intro d h1 h2
  unfold Data.actComment
  dsimp only
  have e : (stale d l).lcc = d.lcc := rfl
  rw [e]
  cases d.lcc <;> exact ⟨h1, h2, rfl⟩

theorem even_mComment (l : Leftover) (ts : Nat) : Even l fun d => d.mComment ts := by
  intro d h1 h2
  have e : ∀ d : Data, d.inq = false → d.deq = d := fun d h => by unfold Data.deq; rw [h]; rfl
  unfold Data.mComment
  dsimp only
  rw [e d h1, e (stale d l) h1]
  exact even_actComment l ts d h1 h2

theorem even_internal (l : Leftover) (p : Nat) : Even l fun d => d.stdInternalNewline p := by
  intro d h1 h2
  have e : ∀ d : Data, d.inq = false → d.stdInternalNewline p =
      { (if Data.after p d.ls then d.emit false d.kind d.ls p else d) with wlc := false, lcc := false, ls := some p } := by
    intro d h; unfold Data.stdInternalNewline; rw [h]
  have e1 : (stale d l).ls = d.ls := rfl
  have e2 : (stale d l).kind = d.kind := rfl
  dsimp only
  rw [e d h1, e (stale d l) h1, e1, e2, stale_emit]
  cases Data.after p d.ls with
  | false => exact ⟨h1, h2, rfl⟩
  | true => exact ⟨(emitNow_inq ..).trans h1, (emitNow_queue ..).trans h2, rfl⟩

theorem even_newline (l : Leftover) (ts te : Nat) : Even l fun d => d.stdNewline ts te := by
  intro d h1 h2
  have e : ∀ d : Data, d.inq = false → d.deq = d := fun d h => by unfold Data.deq; rw [h]; rfl
  unfold Data.stdNewline
  dsimp only
  rw [e d h1, e (stale d l) h1]
  have e1 : (stale d l).ls = d.ls := rfl
  have e2 : (stale d l).lcc = d.lcc := rfl
  have e3 : (stale d l).wlc = d.wlc := rfl
  rw [e1, e2, e3, stale_emit, stale_emit, stale_emit]
  cases Data.after te d.ls <;> cases d.lcc <;> cases d.wlc <;>
    first
    | exact ⟨h1, h2, rfl⟩
    | exact ⟨(emitNow_inq ..).trans h1, (emitNow_queue ..).trans h2, rfl⟩

theorem even_last (l : Leftover) (pe : Nat) : Even l fun d => d.processLastLine pe := by
  intro d h1 h2
  unfold Data.processLastLine
  dsimp only
  have e1 : (stale d l).ls = d.ls := rfl
  have e2 : (stale d l).lcc = d.lcc := rfl
  have e3 : (stale d l).wlc = d.wlc := rfl
  rw [e1, e2, e3, stale_emit, stale_emit]
  cases d.lcc <;> cases d.wlc <;>
    first
    | exact ⟨h1, h2, rfl⟩
    | exact ⟨(emitNow_inq ..).trans h1, (emitNow_queue ..).trans h2, rfl⟩

theorem even_commit (l : Leftover) : Even l Data.actCommit := by
  intro d h1 h2
  have e : ∀ d : Data, d.inq = false → d.actCommit = d := fun d h => by unfold Data.actCommit; rw [h]; rfl
  rw [e d h1, e (stale d l) h1]
  exact ⟨h1, h2, rfl⟩

theorem rel_enqueue {l : Leftover} {d d' : Data} (h : Rel l d d') : Rel l d.actEnqueue d'.actEnqueue := by
  rcases h with rfl | ⟨_, _, rfl⟩
  · exact .inl rfl
  · exact .inl rfl

theorem Rel.ent {l : Leftover} {d d' : Data} (h : Rel l d d') : d.ent = d'.ent := by
  rcases h with rfl | ⟨_, _, rfl⟩ <;> rfl

theorem Rel.cond {l : Leftover} {d d' : Data} (h : Rel l d d') (buf : List Byte) (p : Nat) : condAt buf p d = condAt buf p d' := by
  rcases h with rfl | ⟨_, _, rfl⟩
  · rfl
  · funext c; cases c <;> rfl

theorem rel_callback (M : Machine) {l : Leftover} {d d' : Data} (h : Rel l d d') (p ts te : Nat) :
    Rel l (M.callback d p ts te) (M.callback d' p ts te) := by
  unfold Machine.callback
  rw [h.ent]
  cases M.op d'.ent with
  | ls => exact (even_mLs l ts).rel h
  | code => exact (even_mCode l ts).rel h
  | comment => exact (even_mComment l ts).rel h
  | internalNewline => exact (even_internal l p).rel h
  | newline => exact (even_newline l ts te).rel h
  | nop => exact h

theorem rel_act (M : Machine) (ts te : Nat) {l : Leftover} {d d' : Data} (h : Rel l d d') (np : Nat) (a : Act) :
    Rel l (M.act ts te (d, np) a).1 (M.act ts te (d', np) a).1 ∧ (M.act ts te (d, np) a).2 = (M.act ts te (d', np) a).2 := by
  refine ⟨?_, by cases a <;> rfl⟩
  have key : ∀ f : Data → Data, Even l f → Rel l (f d) (f d') := fun f hf => hf.rel h
  cases a with
  | setEnt e => exact key (fun d => { d with ent := e }) fun d h1 h2 => ⟨h1, h2, rfl⟩
  | code => exact key (fun d => d.actCode ts) fun d h1 h2 => ⟨h1, h2, rfl⟩
  | comment => exact key _ (even_actComment l ts)
  | enqueue => exact rel_enqueue h
  | commit => exact key _ (even_commit l)
  | cb => exact rel_callback M h _ ts te
  | nestRes => exact key (fun d => { d with nest := 0 }) fun d h1 h2 => ⟨h1, h2, rfl⟩
  | nestInc => exact key (fun d => { d with nest := d.nest + 1 }) fun d h1 h2 => ⟨h1, h2, rfl⟩
  | nestDec => exact key (fun d => { d with nest := d.nest - 1 }) fun d h1 h2 => ⟨h1, h2, rfl⟩
  | fhold n => exact h
  | emb x => exact h

theorem rel_acts (M : Machine) (ts te : Nat) {l : Leftover} : ∀ (as : List Act) {d d' : Data} (_ : Rel l d d') (np : Nat),
    Rel l (M.acts ts te (d, np) as).1 (M.acts ts te (d', np) as).1 ∧ (M.acts ts te (d, np) as).2 = (M.acts ts te (d', np) as).2
  | [], _, _, h, _ => ⟨h, rfl⟩
  | a :: r, d, d', h, np => by
    obtain ⟨h1, h2⟩ := rel_act M ts te h np a
    have := rel_acts M ts te r h1 (M.act ts te (d, np) a).2
    have e : M.acts ts te (d', np) (a :: r) = M.acts ts te ((M.act ts te (d', np) a).1, (M.act ts te (d, np) a).2) r := by
      rw [h2]; rfl
    rw [e]
    exact this

theorem rel_end (M : Machine) {l : Leftover} {d d' : Data} (h : Rel l d d') (ts te k : Nat) : Rel l (M.runEnd d ts te k) (M.runEnd d' ts te k) := by
  unfold Machine.runEnd
  cases M.ends.getD k .none with
  | none => exact h
  | cb => exact rel_callback M h _ ts te
  | ecb => exact Even.rel (f := fun d => { d with ents := d.ents ++ [(d.ent, ts, te)] }) (fun d h1 h2 => ⟨h1, h2, rfl⟩) h

/-- The same for the states of a parser. -/
def RelC (l : Leftover) (c c' : Cfg) : Prop := ∃ d, c = { c' with d := d } ∧ Rel l d c'.d

def RelO (l : Leftover) : Option Cfg → Option Cfg → Prop
  | none, none => True
  | some c, some c' => RelC l c c'
  | _, _ => False

theorem rel_finish (M : Machine) {l : Leftover} (c : Cfg) {d d' : Data} (h : Rel l d d') (d0 : Data) (te k : Nat) :
    RelC l (M.finish { c with d := d0 } d te k) (M.finish c d' te k) := ⟨_, rfl, rel_end M h c.ts te k⟩

theorem rel_fallback (M : Machine) {l : Leftover} (c : Cfg) {d : Data} (h : Rel l d c.d) :
    RelO l (M.fallback { c with d := d }) (M.fallback c) := by
  unfold Machine.fallback
  dsimp only
  cases M.nfa.accepts c.q with
  | some k => exact rel_finish M c (rel_acts M c.ts c.te _ h (c.p + 1)).1 d c.p k
  | none =>
    dsimp only
    cases c.acc with
    | none => trivial
    | some k =>
      exact ⟨_, rfl, rel_end M h c.ts c.te k⟩

theorem rel_step (M : Machine) (buf : List Byte) {l : Leftover} (c : Cfg) {d : Data} (h : Rel l d c.d) :
    RelO l (M.step buf { c with d := d }) (M.step buf c) := by
  unfold Machine.step
  dsimp only
  cases buf[c.p]? with
  | none =>
    dsimp only
    split
    · trivial
    · exact rel_fallback M c h
  | some b =>
    dsimp only
    rw [h.cond]
    cases M.nfa.delta c.q b.toNat (condAt buf c.p c.d) with
    | none =>
      dsimp only
      split
      · trivial
      · exact rel_fallback M c h
    | some x =>
      obtain ⟨q', as⟩ := x
      dsimp only
      obtain ⟨h1, h2⟩ := rel_acts M (if c.q.isEmpty then c.p else c.ts) (if (M.nfa.accepts q').isSome then c.p + 1 else c.te) as h (c.p + 1)
      rw [h2]
      split
      · exact ⟨_, rfl, rel_end M h1 _ _ _⟩
      · exact ⟨_, rfl, h1⟩

theorem rel_run (M : Machine) (buf : List Byte) {l : Leftover} : ∀ (n : Nat) {c c' : Cfg}, RelC l c c' → RelC l (M.run buf n c) (M.run buf n c')
  | 0, _, _, h => h
  | n + 1, _, c', ⟨d, rfl, hd⟩ => by
    have h := rel_step M buf c' hd
    unfold Machine.run
    cases h1 : M.step buf { c' with d := d } with
    | none =>
      rw [h1] at h
      cases h2 : M.step buf c' with
      | none => exact ⟨d, rfl, hd⟩
      | some y => rw [h2] at h; exact h.elim
    | some x =>
      rw [h1] at h
      cases h2 : M.step buf c' with
      | none => rw [h2] at h; exact h.elim
      | some y => rw [h2] at h; exact rel_run M buf n h

theorem rel_exec (M : Machine) (l : Leftover) (buf : List Byte) : Rel l (exec M l buf).d (exec M {} buf).d := by
  obtain ⟨d, h1, h2⟩ := rel_run M buf (fuel buf.length) (l := l) (c := initCfg l) (c' := initCfg {}) ⟨_, rfl, .inr ⟨rfl, rfl, rfl⟩⟩
  unfold exec
  rw [h1]
  exact h2

/-! ### Parsers with embedded languages -/

def estale (x : EData) (l : ELeft) : EData := { x with d := stale x.d l.l, qlangs := l.qlangs }

def ERel (l : ELeft) (x x' : EData) : Prop := x = x' ∨ (x'.d.inq = false ∧ x'.d.queue = [] ∧ x'.qlangs = []) ∧ x = estale x' l

/-- Operations that treat untouched variables alike. -/
def EEven (l : ELeft) (f : EData → EData) : Prop :=
  ∀ x : EData, (x.d.inq = false ∧ x.d.queue = [] ∧ x.qlangs = []) →
    ((f x).d.inq = false ∧ (f x).d.queue = [] ∧ (f x).qlangs = []) ∧ f (estale x l) = estale (f x) l

theorem EEven.rel {l : ELeft} {f : EData → EData} (hf : EEven l f) {x x' : EData} (h : ERel l x x') : ERel l (f x) (f x') := by
  rcases h with rfl | ⟨h1, rfl⟩
  · exact .inl rfl
  · exact .inr (hf x' h1)

/-- What the macros do, with the language of the callbacks. -/
theorem even_upd {l : ELeft} {f : Data → Data} (hf : Even l.l f) (k : EData → Nat) (hk : ∀ x, k (estale x l) = k x) :
    EEven l fun x => x.upd (k x) (f x.d) := by
  rintro x ⟨h1, h2, h3⟩
  obtain ⟨e1, e2, e3⟩ := hf x.d h1 h2
  refine ⟨⟨e1, e2, by simp [EData.upd, e2, h2, h3]⟩, ?_⟩
  dsimp only
  rw [hk]
  unfold EData.upd
  have : (estale x l).d = stale x.d l.l := rfl
  rw [this, e3]
  simp [estale, stale, e2, h2]

theorem even_seen {l : ELeft} {f : EData → EData} (hf : EEven l f) : EEven l fun x => { f x with seen := none } := by
  intro x hx
  obtain ⟨h1, h2⟩ := hf x hx
  refine ⟨h1, ?_⟩
  dsimp only
  rw [h2]
  rfl

theorem even_d {l : ELeft} {f : Data → Data} (hf : Even l.l f) : EEven l fun x => { x with d := f x.d } := by
  rintro x ⟨h1, h2, h3⟩
  obtain ⟨e1, e2, e3⟩ := hf x.d h1 h2
  refine ⟨⟨e1, e2, h3⟩, ?_⟩
  dsimp only
  have : (estale x l).d = stale x.d l.l := rfl
  rw [this, e3]
  rfl

theorem even_ecommit (l : ELeft) : EEven l EData.actCommit := by
  intro x h
  have e : ∀ x : EData, x.d.inq = false → x.actCommit = x := fun x h => by unfold EData.actCommit; rw [h]; rfl
  rw [e x h.1, e (estale x l) h.1]
  exact ⟨h, rfl⟩

theorem even_outry (l : ELeft) : EEven l EData.outry := by
  intro x h
  unfold EData.outry
  have e1 : (estale x l).d.lcc = x.d.lcc := rfl
  have e2 : (estale x l).d.wlc = x.d.wlc := rfl
  rw [e1, e2]
  split <;> exact ⟨h, rfl⟩

theorem rel_eenqueue {l : ELeft} {x x' : EData} (h : ERel l x x') : ERel l x.actEnqueue x'.actEnqueue := by
  rcases h with rfl | ⟨_, rfl⟩
  · exact .inl rfl
  · exact .inl rfl

theorem ERel.ent {l : ELeft} {x x' : EData} (h : ERel l x x') : x.d.ent = x'.d.ent := by
  rcases h with rfl | ⟨_, rfl⟩ <;> rfl

theorem ERel.cond {l : ELeft} {x x' : EData} (h : ERel l x x') (buf : List Byte) (p : Nat) : condAt buf p x.d = condAt buf p x'.d := by
  rcases h with rfl | ⟨_, rfl⟩
  · rfl
  · funext c; cases c <;> rfl

/-- The same for what actions change. -/
def ERelS (l : ELeft) (s s' : ES) : Prop := ∃ x, s = { s' with x := x } ∧ ERel l x s'.x

theorem rel_ecallback (M : Multi) (buf : List Byte) (lang ts : Nat) {l : ELeft} (s : ES) {x : EData} (h : ERel l x s.x) :
    ERelS l (M.callback buf lang ts { s with x := x }) (M.callback buf lang ts s) := by
  unfold Multi.callback
  dsimp only
  rw [h.ent]
  have hk : ∀ x, EData.embLang (estale x l) lang = x.embLang lang := fun _ => rfl
  cases M.op lang s.x.d.ent with
  | ls => exact ⟨_, rfl, (even_upd (even_mLs l.l ts) (fun _ => lang) fun _ => rfl).rel h⟩
  | code => exact ⟨_, rfl, (even_upd (even_mCode l.l ts) (fun _ => lang) fun _ => rfl).rel h⟩
  | comment => exact ⟨_, rfl, (even_upd (even_mComment l.l ts) (fun _ => lang) fun _ => rfl).rel h⟩
  | internalNewline => exact ⟨_, rfl, (even_upd (even_internal l.l (s.np - 1)) (fun _ => lang) fun _ => rfl).rel h⟩
  | newline => exact ⟨_, rfl, (even_upd (even_newline l.l ts s.te) (fun _ => lang) fun _ => rfl).rel h⟩
  | embInternalNewline => exact ⟨_, rfl, (even_seen (even_upd (even_internal l.l (s.np - 1)) (·.embLang lang) hk)).rel h⟩
  | embNewline => exact ⟨_, rfl, (even_seen (even_upd (even_newline l.l ts s.te) (·.embLang lang) hk)).rel h⟩
  | checkBlank =>
    dsimp only
    cases blankEntry buf (s.np - 1) with
    | none => exact ⟨x, rfl, h⟩
    | some p => exact ⟨_, rfl, (even_upd (even_newline l.l ts (p + 1)) (fun _ => lang) fun _ => rfl).rel h⟩
  | nop => exact ⟨x, rfl, h⟩

theorem rel_eact (M : Multi) (buf : List Byte) (ts : Nat) {l : ELeft} (s : ES) {x : EData} (h : ERel l x s.x) (a : Act) :
    ERelS l (M.act buf ts { s with x := x } a) (M.act buf ts s a) := by
  have key : ∀ f : Data → Data, Even l.l f → ERel l { x with d := f x.d } { s.x with d := f s.x.d } := fun f hf => (even_d hf).rel h
  have saw : ∀ k, ERel l (x.saw k) (s.x.saw k) := fun k => EEven.rel (f := fun x => x.saw k) (fun x h => ⟨h, rfl⟩) h
  cases a with
  | setEnt e => exact ⟨_, rfl, key (fun d => { d with ent := e }) fun d h1 h2 => ⟨h1, h2, rfl⟩⟩
  | code => exact ⟨_, rfl, key (fun d => d.actCode ts) fun d h1 h2 => ⟨h1, h2, rfl⟩⟩
  | comment => exact ⟨_, rfl, key _ (even_actComment l.l ts)⟩
  | enqueue => exact ⟨_, rfl, rel_eenqueue h⟩
  | commit => exact ⟨_, rfl, (even_ecommit l).rel h⟩
  | cb => exact rel_ecallback M buf 0 ts s h
  | nestRes => exact ⟨_, rfl, key (fun d => { d with nest := 0 }) fun d h1 h2 => ⟨h1, h2, rfl⟩⟩
  | nestInc => exact ⟨_, rfl, key (fun d => { d with nest := d.nest + 1 }) fun d h1 h2 => ⟨h1, h2, rfl⟩⟩
  | nestDec => exact ⟨_, rfl, key (fun d => { d with nest := d.nest - 1 }) fun d h1 h2 => ⟨h1, h2, rfl⟩⟩
  | fhold n => exact ⟨x, rfl, h⟩
  | emb y =>
    cases y with
    | cb k => exact rel_ecallback M buf k ts s h
    | outry => exact ⟨_, rfl, (even_outry l).rel h⟩
    | saw k => exact ⟨_, rfl, saw k⟩
    | sawCall k m => exact ⟨_, rfl, saw k⟩
    | back => exact ⟨x, rfl, h⟩
    | ret => exact ⟨x, rfl, h⟩
    | goto m => exact ⟨x, rfl, h⟩
    | indInc => exact ⟨_, rfl, key (fun d => { d with ind := d.ind + 1 }) fun d h1 h2 => ⟨h1, h2, rfl⟩⟩
    | indRes => exact ⟨_, rfl, key (fun d => { d with ind := 0 }) fun d h1 h2 => ⟨h1, h2, rfl⟩⟩
    | indSet => exact ⟨_, rfl, key (fun d => { d with prior := d.ind }) fun d h1 h2 => ⟨h1, h2, rfl⟩⟩
    | eofCommit =>
      unfold Multi.act
      dsimp only
      split
      · exact ⟨_, rfl, (even_ecommit l).rel h⟩
      · exact ⟨x, rfl, h⟩

theorem rel_eacts (M : Multi) (buf : List Byte) (ts : Nat) {l : ELeft} : ∀ (as : List Act) (s : ES) {x : EData} (_ : ERel l x s.x),
    ERelS l (M.acts buf ts { s with x := x } as) (M.acts buf ts s as)
  | [], _, x, h => ⟨x, rfl, h⟩
  | a :: r, s, x, h => by
    obtain ⟨y, h1, h2⟩ := rel_eact M buf ts s h a
    unfold Multi.acts
    dsimp only
    rw [h1]
    dsimp only
    split
    · exact ⟨y, rfl, h2⟩
    · exact rel_eacts M buf ts r _ h2

theorem rel_eend (M : Multi) (buf : List Byte) (ts : Nat) {l : ELeft} (s : ES) {x : EData} (h : ERel l x s.x) (e : EEnd) :
    ERelS l (M.runEnd buf ts { s with x := x } e) (M.runEnd buf ts s e) := by
  cases e with
  | none => exact ⟨x, rfl, h⟩
  | cb k => exact rel_ecallback M buf k ts s h
  | ecb k =>
    refine ⟨_, rfl, EEven.rel (f := fun x => { x with d := { x.d with ents := x.d.ents ++ [(x.d.ent, ts, s.te)] }, elangs := x.elangs ++ [k] }) ?_ h⟩
    intro x h
    exact ⟨h, rfl⟩
  | call m => exact ⟨x, rfl, h⟩
  | goto m => exact ⟨x, rfl, h⟩

/-- The same for the states of a parser. -/
def ERelC (l : ELeft) (c c' : ECfg) : Prop := ∃ x, c = { c' with x := x } ∧ ERel l x c'.x

def ERelO (l : ELeft) : Option ECfg → Option ECfg → Prop
  | none, none => True
  | some c, some c' => ERelC l c c'
  | _, _ => False

theorem rel_goOn {l : ELeft} (c : ECfg) (x0 : EData) (q : State) {s s' : ES} (h : ERelS l s s') (acc : Option Nat) :
    ERelC l (({ c with x := x0 } : ECfg).goOn q s acc) (c.goOn q s' acc) := by
  obtain ⟨x, rfl, hx⟩ := h
  unfold ECfg.goOn
  dsimp only
  cases s'.jump with
  | none => exact ⟨x, rfl, hx⟩
  | some j =>
    cases j with
    | goto m => exact ⟨x, rfl, hx⟩
    | call m =>
      dsimp only
      split <;> exact ⟨x, rfl, hx⟩
    | ret =>
      dsimp only
      cases c.stack <;> exact ⟨x, rfl, hx⟩

theorem rel_efinish (M : Multi) (buf : List Byte) {l : ELeft} (c : ECfg) (x0 : EData) (ts : Nat) {x x' : EData} (h : ERel l x x') (te k : Nat) :
    ERelC l (M.finish buf { c with x := x0 } ts x te k) (M.finish buf c ts x' te k) := by
  unfold Multi.finish
  exact rel_goOn { c with ts := ts } x0 [] (rel_eend M buf ts { x := x', np := te, te := te } h _) none

theorem rel_efallback (M : Multi) (buf : List Byte) {l : ELeft} (c : ECfg) {x : EData} (h : ERel l x c.x) :
    ERelO l (M.fallback buf { c with x := x }) (M.fallback buf c) := by
  unfold Multi.fallback
  dsimp only
  cases (M.mach c.m).nfa.accepts c.q with
  | some k =>
    obtain ⟨y, h1, h2⟩ := rel_eacts M buf c.ts ((M.mach c.m).nfa.leaveActs c.q) { x := c.x, np := c.p + 1, te := c.te } h
    dsimp only at h1
    rw [h1]
    exact rel_efinish M buf c x c.ts h2 c.p k
  | none =>
    dsimp only
    cases c.acc with
    | none => trivial
    | some k => exact rel_efinish M buf c x c.ts h c.te k

theorem rel_estep (M : Multi) (buf : List Byte) {l : ELeft} (c : ECfg) {x : EData} (h : ERel l x c.x) :
    ERelO l (M.step buf { c with x := x }) (M.step buf c) := by
  unfold Multi.step
  dsimp only
  rw [h.cond]
  split
  · trivial
  · cases (buf[c.p]?).bind fun b => (M.mach c.m).nfa.delta c.q b.toNat (condAt buf c.p c.x.d) with
    | none =>
      dsimp only
      split
      · trivial
      · exact rel_efallback M buf c h
    | some y =>
      obtain ⟨q', as⟩ := y
      dsimp only
      generalize (if ((M.mach c.m).scanner && c.q.isEmpty) = true then c.p else c.ts) = ts
      generalize (if (M.mach c.m).scanner = true then (M.mach c.m).nfa.accepts q' else none) = k
      generalize ((M.mach c.m).scanner && (M.mach c.m).nfa.isLast q') = last
      generalize (if (k.isSome && !last) = true then c.p + 1 else c.te) = te
      obtain ⟨y, h1, h2⟩ := rel_eacts M buf ts as { x := c.x, np := c.p + 1, te := te } h
      dsimp only at h1
      rw [h1]
      dsimp only
      generalize M.acts buf ts { x := c.x, np := c.p + 1, te := te } as = s at h2
      cases s.jump.isSome with
      | true => exact rel_goOn { c with ts := ts } x _ ⟨y, rfl, h2⟩ none
      | false =>
        cases last with
        | true => exact rel_efinish M buf c x ts h2 _ _
        | false => exact rel_goOn { c with ts := ts } x _ ⟨y, rfl, h2⟩ _

theorem rel_erun (M : Multi) (buf : List Byte) {l : ELeft} : ∀ (n : Nat) {c c' : ECfg}, ERelC l c c' → ERelC l (M.run buf n c) (M.run buf n c')
  | 0, _, _, h => h
  | n + 1, _, c', ⟨x, rfl, hx⟩ => by
    have h := rel_estep M buf c' hx
    unfold Multi.run
    cases h1 : M.step buf { c' with x := x } with
    | none =>
      rw [h1] at h
      cases h2 : M.step buf c' with
      | none => exact ⟨x, rfl, hx⟩
      | some y => rw [h2] at h; exact h.elim
    | some z =>
      rw [h1] at h
      cases h2 : M.step buf c' with
      | none => rw [h2] at h; exact h.elim
      | some y => rw [h2] at h; exact rel_erun M buf n h

theorem rel_eexec (M : Multi) (m : Nat) (l : ELeft) (buf : List Byte) : ERel l (eexec M m l buf).x (eexec M m {} buf).x := by
  obtain ⟨x, h1, h2⟩ := rel_erun M buf (efuel buf.length) (l := l) (c := einit m l) (c' := einit m {}) ⟨_, rfl, .inr ⟨⟨rfl, rfl, rfl⟩, rfl⟩⟩
  unfold eexec
  rw [h1]
  exact h2

end Ohcount.Queue
