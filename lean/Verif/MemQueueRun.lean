import Verif.MemQueue
/-
The parsers with the queue in memory do what the parsers of `Ragel.lean` and `RagelEmbed.lean` do.
-/

namespace Ohcount.Queue

open Ragel

variable {α β : Type} {m0 : Ptr → Option Block}

/-- From a queue that holds `items` the program runs to its end without a fault; `P` holds of the items of the queue then and of the
result. -/
def Gives (m0 : Ptr → Option Block) (items : List Item) (f : QM α) (P : List Item → α → Prop) : Prop :=
  ∀ h, Holds m0 h items → ∃ a h' items', f h = some (a, h') ∧ Holds m0 h' items' ∧ P items' a

theorem Gives.bind {items : List Item} {f : QM α} {g : α → QM β} {P : List Item → α → Prop} {Q : List Item → β → Prop}
    (hf : Gives m0 items f P) (hg : ∀ it a, P it a → Gives m0 it (g a) Q) : Gives m0 items (f >>= g) Q := by
  intro h hh
  obtain ⟨a, h1, it, e1, hh1, hp⟩ := hf h hh
  obtain ⟨b, h2, it2, e2, hh2, hq⟩ := hg it a hp h1 hh1
  refine ⟨b, h2, it2, ?_, hh2, hq⟩
  show (f h).bind _ = _
  rw [e1]
  exact e2

theorem Gives.pure {items : List Item} {a : α} {P : List Item → α → Prop} (hp : P items a) : Gives m0 items (pure a) P :=
  fun h hh => ⟨a, h, items, rfl, hh, hp⟩

theorem Gives.post {items : List Item} {f : QM α} {P Q : List Item → α → Prop} (hf : Gives m0 items f P) (hpq : ∀ it a, P it a → Q it a) :
    Gives m0 items f Q := by
  intro h hh
  obtain ⟨a, h1, it, e1, hh1, hp⟩ := hf h hh
  exact ⟨a, h1, it, e1, hh1, hpq it a hp⟩

/-- The variables of a parser, with its queue. -/
def withQ (d : Data) (items : List Item) : Data := { d with queue := items.map (·.2) }

/-- `d'` and a queue with the items `it` stand for `d`. -/
def Is (d : Data) (it : List Item) (d' : Data) : Prop := d'.queue = [] ∧ withQ d' it = d

theorem enqueueAct_ok {items : List Item} {d : Data} (hd : d.queue = []) :
    Gives m0 items (enqueueAct d) fun it d' => Is (withQ d items).actEnqueue it d' ∧ it = [] := by
  refine Gives.bind (P := fun it _ => it = []) ?_ ?_
  · intro h hh
    exact ⟨(), _, [], clear_ok hh, Holds.nil hh.finite, rfl⟩
  · rintro it _ rfl
    exact Gives.pure ⟨⟨hd, rfl⟩, rfl⟩

theorem commitAct_ok {items : List Item} {d : Data} (hd : d.queue = []) :
    Gives m0 items (commitAct d) (Is (withQ d items).actCommit) := by
  unfold commitAct Data.actCommit
  cases hi : d.inq with
  | false =>
    have hi' : (withQ d items).inq = false := hi
    rw [hi']
    exact Gives.pure ⟨hd, rfl⟩
  | true =>
    have hi' : (withQ d items).inq = true := hi
    rw [hi']
    refine Gives.bind (P := fun it r => it = [] ∧ r = items) ?_ ?_
    · intro h hh
      exact ⟨items, _, [], commit_ok hh, Holds.nil hh.finite, rfl, rfl⟩
    · rintro it _ ⟨rfl, rfl⟩
      exact Gives.pure ⟨hd, rfl⟩

theorem emit_ok {al : Alloc} (hal : Fresh al) (l : Nat) {items : List Item} {d : Data} (hd : d.queue = []) (q : Bool) (k : Kind) (s : Option Nat)
    (e : Nat) : Gives m0 items (emit al l d q k s e) fun it d' => Is ((withQ d items).emit q k s e) it d' ∧
      it.map (·.1) = items.map (·.1) ++ List.replicate (((withQ d items).emit q k s e).queue.length - items.length) l := by
  unfold emit Data.emit
  cases s with
  | none => exact Gives.pure ⟨⟨hd, rfl⟩, by simp [withQ]⟩
  | some s =>
    cases q with
    | false => exact Gives.pure ⟨⟨hd, rfl⟩, by simp [withQ]⟩
    | true =>
      refine Gives.bind (P := fun it _ => it = items ++ [(l, ⟨k, s, e⟩)]) ?_ ?_
      · intro h hh
        obtain ⟨h', e1, e2⟩ := enqueue_ok hal hh (l, ⟨k, s, e⟩)
        exact ⟨(), h', _, e1, e2, rfl⟩
      · rintro it _ rfl
        exact Gives.pure ⟨⟨hd, by simp [withQ]⟩, by simp [withQ]⟩

theorem internalNewline_ok {al : Alloc} (hal : Fresh al) (l : Nat) {items : List Item} {d : Data} (hd : d.queue = []) (p : Nat) :
    Gives m0 items (internalNewline al l d p) fun it d' => Is ((withQ d items).stdInternalNewline p) it d' ∧
      it.map (·.1) = items.map (·.1) ++ List.replicate (((withQ d items).stdInternalNewline p).queue.length - items.length) l := by
  unfold internalNewline Data.stdInternalNewline
  dsimp only
  have hls : (withQ d items).ls = d.ls := rfl
  rw [hls]
  cases ha : Data.after p d.ls with
  | false =>
    refine Gives.bind (P := fun it d' => it = items ∧ d' = d) (Gives.pure ⟨rfl, rfl⟩) ?_
    rintro it d' ⟨rfl, rfl⟩
    exact Gives.pure ⟨⟨hd, rfl⟩, by simp [withQ]⟩
  | true =>
    refine Gives.bind (emit_ok hal l hd d.inq d.kind d.ls p) ?_
    rintro it d' ⟨⟨h1, h2⟩, h3⟩
    refine Gives.pure ⟨⟨h1, ?_⟩, h3⟩
    have e : (withQ d items).emit d.inq d.kind d.ls p = withQ d' it := h2.symm
    have e' : (withQ d items).emit (withQ d items).inq (withQ d items).kind d.ls p = withQ d' it := e
    simp only [if_true]
    rw [e']
    rfl

theorem mLs_q (d : Data) (items : List Item) (ts : Nat) : (withQ d items).mLs ts = withQ (d.mLs ts) items := by
  unfold Data.mLs Data.deq
  cases h : d.inq <;> simp [withQ, h, Data.dequeue]

theorem mCode_q (d : Data) (items : List Item) (ts : Nat) : (withQ d items).mCode ts = withQ (d.mCode ts) items := by
  unfold Data.mCode Data.deq Data.actCode
  cases h : d.inq <;> simp [withQ, h, Data.dequeue]

theorem actComment_q (d : Data) (items : List Item) (ts : Nat) : (withQ d items).actComment ts = withQ (d.actComment ts) items := by
  unfold Data.actComment
  cases h : d.lcc <;> simp [withQ, h]

theorem deq_q (d : Data) (items : List Item) : (withQ d items).deq = withQ d.deq items := by
  unfold Data.deq
  cases h : d.inq <;> simp [withQ, h, Data.dequeue]

theorem mComment_q (d : Data) (items : List Item) (ts : Nat) : (withQ d items).mComment ts = withQ (d.mComment ts) items := by
  unfold Data.mComment
  rw [deq_q, actComment_q]

theorem emitNow_q (d : Data) (items : List Item) (k : Kind) (s : Option Nat) (e : Nat) :
    (withQ d items).emit false k s e = withQ (d.emit false k s e) items := by
  cases s <;> rfl

theorem stdNewline_q (d : Data) (items : List Item) (ts te : Nat) : (withQ d items).stdNewline ts te = withQ (d.stdNewline ts te) items := by
  unfold Data.stdNewline
  rw [deq_q]
  generalize d.deq = d
  dsimp only
  have h1 : (withQ d items).ls = d.ls := rfl
  have h2 : (withQ d items).lcc = d.lcc := rfl
  have h3 : (withQ d items).wlc = d.wlc := rfl
  rw [h1, h2, h3, emitNow_q, emitNow_q, emitNow_q]
  cases Data.after te d.ls <;> cases d.lcc <;> cases d.wlc <;> rfl

theorem processLastLine_q (d : Data) (items : List Item) (pe : Nat) : (withQ d items).processLastLine pe = withQ (d.processLastLine pe) items := by
  unfold Data.processLastLine
  have h1 : (withQ d items).ls = d.ls := rfl
  have h2 : (withQ d items).lcc = d.lcc := rfl
  have h3 : (withQ d items).wlc = d.wlc := rfl
  rw [h1, h2, h3, emitNow_q, emitNow_q]
  cases d.lcc <;> cases d.wlc <;> rfl

theorem deq_queue (d : Data) : d.deq.queue = d.queue := by
  unfold Data.deq; cases d.inq <;> rfl

theorem actComment_queue (d : Data) (ts : Nat) : (d.actComment ts).queue = d.queue := by
  unfold Data.actComment; cases d.lcc <;> rfl

theorem emitNow_queue (d : Data) (k : Kind) (s : Option Nat) (e : Nat) : (d.emit false k s e).queue = d.queue := by
  cases s <;> rfl

theorem stdNewline_queue (d : Data) (ts te : Nat) : (d.stdNewline ts te).queue = d.queue := by
  unfold Data.stdNewline
  rw [← deq_queue d]
  generalize d.deq = d
  dsimp only
  split
  · split
    · rw [emitNow_queue]
    · split
      · rw [emitNow_queue]
      · rw [emitNow_queue]
  · rfl

theorem callback_ok {al : Alloc} (hal : Fresh al) (M : Machine) {items : List Item} {d : Data} (hd : d.queue = []) (p ts te : Nat) :
    Gives m0 items (callback al M d p ts te) (Is (M.callback (withQ d items) p ts te)) := by
  unfold callback
  have he : (withQ d items).ent = d.ent := rfl
  cases ho : M.op d.ent with
  | internalNewline =>
    have : M.callback (withQ d items) p ts te = (withQ d items).stdInternalNewline p := by unfold Machine.callback; rw [he, ho]
    rw [this]
    exact (internalNewline_ok hal 0 hd p).post fun _ _ h => h.1
  | ls =>
    have e1 : ∀ d' : Data, d'.ent = d.ent → M.callback d' p ts te = d'.mLs ts := by intro d' h; unfold Machine.callback; rw [h, ho]
    rw [e1 _ he, e1 _ rfl, mLs_q]
    exact Gives.pure ⟨(deq_queue d).trans hd, rfl⟩
  | code =>
    have e1 : ∀ d' : Data, d'.ent = d.ent → M.callback d' p ts te = d'.mCode ts := by intro d' h; unfold Machine.callback; rw [h, ho]
    rw [e1 _ he, e1 _ rfl, mCode_q]
    exact Gives.pure ⟨(deq_queue d).trans hd, rfl⟩
  | comment =>
    have e1 : ∀ d' : Data, d'.ent = d.ent → M.callback d' p ts te = d'.mComment ts := by intro d' h; unfold Machine.callback; rw [h, ho]
    rw [e1 _ he, e1 _ rfl, mComment_q]
    exact Gives.pure ⟨((actComment_queue _ ts).trans (deq_queue d)).trans hd, rfl⟩
  | newline =>
    have e1 : ∀ d' : Data, d'.ent = d.ent → M.callback d' p ts te = d'.stdNewline ts te := by intro d' h; unfold Machine.callback; rw [h, ho]
    rw [e1 _ he, e1 _ rfl, stdNewline_q]
    exact Gives.pure ⟨(stdNewline_queue d ts te).trans hd, rfl⟩
  | nop =>
    have e1 : ∀ d' : Data, d'.ent = d.ent → M.callback d' p ts te = d' := by intro d' h; unfold Machine.callback; rw [h, ho]
    rw [e1 _ he, e1 _ rfl]
    exact Gives.pure ⟨hd, rfl⟩

theorem act_ok {al : Alloc} (hal : Fresh al) (M : Machine) (ts te : Nat) {items : List Item} {d : Data} (hd : d.queue = []) (np : Nat) (a : Act) :
    Gives m0 items (act al M ts te (d, np) a) fun it s =>
      Is (M.act ts te (withQ d items, np) a).1 it s.1 ∧ s.2 = (M.act ts te (withQ d items, np) a).2 := by
  cases a with
  | enqueue => exact Gives.bind (enqueueAct_ok hd) fun it d' h => Gives.pure ⟨h.1, rfl⟩
  | commit => exact Gives.bind (commitAct_ok hd) fun it d' h => Gives.pure ⟨h, rfl⟩
  | cb => exact Gives.bind (callback_ok hal M hd _ ts te) fun it d' h => Gives.pure ⟨h, rfl⟩
  | comment => exact Gives.pure ⟨⟨(actComment_queue d ts).trans hd, (actComment_q d items ts).symm⟩, rfl⟩
  | setEnt e => exact Gives.pure ⟨⟨hd, rfl⟩, rfl⟩
  | code => exact Gives.pure ⟨⟨hd, rfl⟩, rfl⟩
  | nestRes => exact Gives.pure ⟨⟨hd, rfl⟩, rfl⟩
  | nestInc => exact Gives.pure ⟨⟨hd, rfl⟩, rfl⟩
  | nestDec => exact Gives.pure ⟨⟨hd, rfl⟩, rfl⟩
  | fhold n => exact Gives.pure ⟨⟨hd, rfl⟩, rfl⟩
  | emb x => exact Gives.pure ⟨⟨hd, rfl⟩, rfl⟩

theorem acts_ok {al : Alloc} (hal : Fresh al) (M : Machine) (ts te : Nat) : ∀ (as : List Act) {items : List Item} {d : Data} (_ : d.queue = []) (np : Nat),
    Gives m0 items (acts al M ts te (d, np) as) fun it s =>
      Is (M.acts ts te (withQ d items, np) as).1 it s.1 ∧ s.2 = (M.acts ts te (withQ d items, np) as).2
  | [], _, _, hd, _ => Gives.pure ⟨⟨hd, rfl⟩, rfl⟩
  | a :: r, items, d, hd, np => by
    refine Gives.bind (act_ok hal M ts te hd np a) ?_
    rintro it ⟨d', np'⟩ ⟨⟨h1, h2⟩, h3⟩
    refine (acts_ok hal M ts te r h1 np').post ?_
    have e : (withQ d' it, np') = M.act ts te (withQ d items, np) a := Prod.ext h2 h3
    have e2 : M.acts ts te (withQ d items, np) (a :: r) = M.acts ts te (withQ d' it, np') r := by rw [e]; rfl
    intro it' s' h
    rw [e2]
    exact h

theorem runEnd_ok {al : Alloc} (hal : Fresh al) (M : Machine) {items : List Item} {d : Data} (hd : d.queue = []) (ts te k : Nat) :
    Gives m0 items (runEnd al M d ts te k) (Is (M.runEnd (withQ d items) ts te k)) := by
  unfold runEnd Machine.runEnd
  cases M.ends.getD k .none with
  | cb => exact callback_ok hal M hd _ ts te
  | none => exact Gives.pure ⟨hd, rfl⟩
  | ecb => exact Gives.pure ⟨hd, rfl⟩

/-- The state of a parser, with its queue. -/
def cfgQ (c : Cfg) (items : List Item) : Cfg := { c with d := withQ c.d items }

def IsCfg (c : Cfg) (it : List Item) (c' : Cfg) : Prop := c'.d.queue = [] ∧ cfgQ c' it = c

theorem finish_ok {al : Alloc} (hal : Fresh al) (M : Machine) {items : List Item} (c : Cfg) {d : Data} (hd : d.queue = []) (te k : Nat)
    (d0 : Data) : Gives m0 items (finish al M c d te k) (IsCfg (M.finish { c with d := d0 } (withQ d items) te k)) := by
  refine Gives.bind (runEnd_ok hal M hd c.ts te k) ?_
  rintro it d' ⟨h1, h2⟩
  refine Gives.pure ⟨h1, ?_⟩
  unfold Machine.finish cfgQ
  dsimp only
  rw [h2]

def IsOpt (items : List Item) (c : Option Cfg) (it : List Item) (c' : Option Cfg) : Prop := match c' with
  | none => c = none ∧ it = items
  | some c' => ∃ x, c = some x ∧ IsCfg x it c'

theorem fallback_ok {al : Alloc} (hal : Fresh al) (M : Machine) {items : List Item} (c : Cfg) (hd : c.d.queue = []) :
    Gives m0 items (fallback al M c) (IsOpt items (M.fallback (cfgQ c items))) := by
  unfold fallback Machine.fallback
  have e1 : (cfgQ c items).q = c.q := rfl
  have e2 : (cfgQ c items).acc = c.acc := rfl
  rw [e1, e2]
  cases M.nfa.accepts c.q with
  | some k =>
    refine Gives.bind (acts_ok hal M c.ts c.te (M.nfa.leaveActs c.q) hd (c.p + 1)) ?_
    rintro it ⟨d', np⟩ ⟨⟨h1, h2⟩, _⟩
    refine Gives.bind (finish_ok hal M c h1 c.p k (withQ c.d items)) ?_
    intro it' c' h
    refine Gives.pure ⟨_, rfl, ?_⟩
    rw [h2] at h
    exact h
  | none =>
    dsimp only
    cases c.acc with
    | none => exact Gives.pure ⟨rfl, rfl⟩
    | some k =>
      refine Gives.bind (finish_ok hal M c hd c.te k (withQ c.d items)) ?_
      rintro it' c' ⟨h1, h2⟩
      refine Gives.pure ⟨_, rfl, h1, ?_⟩
      have h2' : cfgQ c' it' = M.finish (cfgQ c items) (cfgQ c items).d (cfgQ c items).te k := h2
      rw [← h2']
      rfl

theorem condAt_q (buf : List Byte) (p : Nat) (d : Data) (items : List Item) : condAt buf p (withQ d items) = condAt buf p d := by
  funext c; cases c <;> rfl

theorem step_ok {al : Alloc} (hal : Fresh al) (M : Machine) (buf : List Byte) {items : List Item} (c : Cfg) (hd : c.d.queue = []) :
    Gives m0 items (step al M buf c) (IsOpt items (M.step buf (cfgQ c items))) := by
  unfold step Machine.step
  have e1 : (cfgQ c items).q = c.q := rfl
  have e2 : (cfgQ c items).acc = c.acc := rfl
  have e3 : (cfgQ c items).p = c.p := rfl
  have e4 : (cfgQ c items).d = withQ c.d items := rfl
  rw [e1, e2, e3, e4, condAt_q]
  cases buf[c.p]? with
  | none =>
    dsimp only
    split
    · exact Gives.pure ⟨rfl, rfl⟩
    · exact fallback_ok hal M c hd
  | some b =>
    dsimp only
    cases M.nfa.delta c.q b.toNat (condAt buf c.p c.d) with
    | none =>
      dsimp only
      split
      · exact Gives.pure ⟨rfl, rfl⟩
      · exact fallback_ok hal M c hd
    | some x =>
      obtain ⟨q', as⟩ := x
      dsimp only
      refine Gives.bind (acts_ok hal M _ _ as hd (c.p + 1)) ?_
      rintro it ⟨d', np⟩ ⟨⟨h1, h2⟩, h3⟩
      have e5 : (cfgQ c items).ts = c.ts := rfl
      have e6 : (cfgQ c items).te = c.te := rfl
      have e7 : (cfgQ c items).raw = c.raw := rfl
      rw [e5, e6, e7]
      dsimp only at h1 h2 h3
      rw [← h2, ← h3]
      split
      · refine Gives.bind (finish_ok hal M _ h1 np _ (withQ c.d items)) ?_
        intro it' c' h
        exact Gives.pure ⟨_, rfl, h⟩
      · exact Gives.pure ⟨_, rfl, h1, rfl⟩

theorem run_ok {al : Alloc} (hal : Fresh al) (M : Machine) (buf : List Byte) : ∀ (n : Nat) {items : List Item} (c : Cfg) (_ : c.d.queue = []),
    Gives m0 items (run al M buf n c) (IsCfg (M.run buf n (cfgQ c items)))
  | 0, _, _, hd => Gives.pure ⟨hd, rfl⟩
  | n + 1, items, c, hd => by
    refine Gives.bind (step_ok hal M buf c hd) ?_
    rintro it (_ | c') h
    · obtain ⟨hx, rfl⟩ := h
      refine Gives.pure ⟨hd, ?_⟩
      unfold Machine.run
      rw [hx]
    · obtain ⟨x, hx, h1, h2⟩ := h
      refine (run_ok hal M buf n c' h1).post ?_
      intro it' c'' h'
      unfold Machine.run
      rw [hx]
      dsimp only
      rw [← h2]
      exact h'

/-! ### Parsers with embedded languages -/

def withE (x : EData) (items : List Item) : EData := { x with d := withQ x.d items, qlangs := items.map (·.1) }

/-- `x'` and a queue with the items `it` stand for `x`. -/
def IsE (x : EData) (it : List Item) (x' : EData) : Prop := (x'.d.queue = [] ∧ x'.qlangs = []) ∧ withE x' it = x

theorem upd_q {x : EData} {l : Nat} {d' : Data} {items it : List Item} (hx : x.d.queue = [] ∧ x.qlangs = []) (hd : d'.queue = [])
    (h : it.map (·.1) = items.map (·.1) ++ List.replicate (it.length - items.length) l) :
    IsE ((withE x items).upd l (withQ d' it)) it (x.upd l d') := by
  refine ⟨⟨hd, by simp [EData.upd, hx, hd]⟩, ?_⟩
  unfold withE EData.upd
  simp only [withQ, List.length_map, EData.mk.injEq, true_and]
  exact ⟨h, trivial⟩

/-- The same if the queue stays as it is. -/
theorem upd_q' {x : EData} {l : Nat} {d' : Data} {items : List Item} (hx : x.d.queue = [] ∧ x.qlangs = []) (hd : d'.queue = []) :
    IsE ((withE x items).upd l (withQ d' items)) items (x.upd l d') := upd_q hx hd (by simp)

theorem ecommit_ok {items : List Item} {x : EData} (hx : x.d.queue = [] ∧ x.qlangs = []) :
    Gives m0 items (ecommit x) (IsE (withE x items).actCommit) := by
  unfold ecommit EData.actCommit Data.actCommit
  cases hi : x.d.inq with
  | false =>
    have hi' : (withE x items).d.inq = false := hi
    rw [hi']
    exact Gives.pure ⟨hx, rfl⟩
  | true =>
    have hi' : (withE x items).d.inq = true := hi
    rw [hi']
    refine Gives.bind (P := fun it r => it = [] ∧ r = items) ?_ ?_
    · intro h hh
      exact ⟨items, _, [], commit_ok hh, Holds.nil hh.finite, rfl, rfl⟩
    · rintro it _ ⟨rfl, rfl⟩
      exact Gives.pure ⟨hx, rfl⟩

/-- `s'` and a queue with the items `it` stand for `s`. -/
def esQ (s : ES) (items : List Item) : ES := { s with x := withE s.x items }

def IsS (s : ES) (it : List Item) (s' : ES) : Prop := (s'.x.d.queue = [] ∧ s'.x.qlangs = []) ∧ esQ s' it = s

theorem IsS.of {s s' : ES} {it : List Item} {x : EData} (h : IsE x it s'.x) (hs : s = { s' with x := x }) : IsS s it s' := by
  refine ⟨h.1, ?_⟩
  rw [hs, ← h.2]
  rfl

theorem ecallback_ok {al : Alloc} (hal : Fresh al) (M : Multi) (buf : List Byte) (l ts : Nat) {items : List Item} {s : ES}
    (hx : s.x.d.queue = [] ∧ s.x.qlangs = []) :
    Gives m0 items (ecallback al M buf l ts s) (IsS (M.callback buf l ts (esQ s items))) := by
  unfold ecallback
  have he : (esQ s items).x.d.ent = s.x.d.ent := rfl
  have ex : (esQ s items).x.d = withQ s.x.d items := rfl
  cases ho : M.op l s.x.d.ent with
  | internalNewline =>
    have : M.callback buf l ts (esQ s items) = { s with x := (withE s.x items).upd l ((withQ s.x.d items).stdInternalNewline (s.np - 1)) } := by
      unfold Multi.callback; dsimp only; rw [he, ho]; rfl
    rw [this]
    refine Gives.bind (internalNewline_ok hal l hx.1 (s.np - 1)) ?_
    rintro it d' ⟨⟨h1, h2⟩, h3⟩
    refine Gives.pure (IsS.of (x := (withE s.x items).upd l (withQ d' it)) (upd_q hx h1 ?_) (by rw [h2]))
    rw [h3, ← h2]
    simp [withQ]
  | embInternalNewline =>
    have : M.callback buf l ts (esQ s items) = { s with x := { (withE s.x items).upd (s.x.embLang l) ((withQ s.x.d items).stdInternalNewline (s.np - 1)) with
        seen := none } } := by
      unfold Multi.callback; dsimp only; rw [he, ho]; rfl
    rw [this]
    refine Gives.bind (internalNewline_ok hal (s.x.embLang l) hx.1 (s.np - 1)) ?_
    rintro it d' ⟨⟨h1, h2⟩, h3⟩
    have h4 : IsE ((withE s.x items).upd (s.x.embLang l) (withQ d' it)) it (s.x.upd (s.x.embLang l) d') := by
      refine upd_q hx h1 ?_
      rw [h3, ← h2]
      simp [withQ]
    refine Gives.pure ⟨h4.1, ?_⟩
    rw [← h2, ← h4.2]
    rfl
  | ls =>
    have e1 : ∀ s' : ES, s'.x.d.ent = s.x.d.ent → M.callback buf l ts s' = { s' with x := s'.x.upd l (s'.x.d.mLs ts) } := by
      intro s' h; unfold Multi.callback; dsimp only; rw [h, ho]
    rw [e1 _ he, e1 _ rfl, ex, mLs_q]
    exact Gives.pure (IsS.of (upd_q' hx ((deq_queue _).trans hx.1)) rfl)
  | code =>
    have e1 : ∀ s' : ES, s'.x.d.ent = s.x.d.ent → M.callback buf l ts s' = { s' with x := s'.x.upd l (s'.x.d.mCode ts) } := by
      intro s' h; unfold Multi.callback; dsimp only; rw [h, ho]
    rw [e1 _ he, e1 _ rfl, ex, mCode_q]
    exact Gives.pure (IsS.of (upd_q' hx ((deq_queue _).trans hx.1)) rfl)
  | comment =>
    have e1 : ∀ s' : ES, s'.x.d.ent = s.x.d.ent → M.callback buf l ts s' = { s' with x := s'.x.upd l (s'.x.d.mComment ts) } := by
      intro s' h; unfold Multi.callback; dsimp only; rw [h, ho]
    rw [e1 _ he, e1 _ rfl, ex, mComment_q]
    exact Gives.pure (IsS.of (upd_q' hx (((actComment_queue _ ts).trans (deq_queue _)).trans hx.1)) rfl)
  | newline =>
    have e1 : ∀ s' : ES, s'.x.d.ent = s.x.d.ent → M.callback buf l ts s' = { s' with x := s'.x.upd l (s'.x.d.stdNewline ts s'.te) } := by
      intro s' h; unfold Multi.callback; dsimp only; rw [h, ho]
    rw [e1 _ he, e1 _ rfl, ex, stdNewline_q]
    exact Gives.pure (IsS.of (upd_q' hx ((stdNewline_queue _ _ _).trans hx.1)) rfl)
  | embNewline =>
    have e1 : ∀ s' : ES, s'.x.d.ent = s.x.d.ent → M.callback buf l ts s' =
        { s' with x := { s'.x.upd (s'.x.embLang l) (s'.x.d.stdNewline ts s'.te) with seen := none } } := by
      intro s' h; unfold Multi.callback; dsimp only; rw [h, ho]
    rw [e1 _ he, e1 _ rfl, ex, stdNewline_q]
    have h4 := upd_q' (l := s.x.embLang l) (items := items) hx ((stdNewline_queue _ ts s.te).trans hx.1)
    refine Gives.pure ⟨h4.1, ?_⟩
    have h5 := h4.2
    show ({ s with x := { withE (s.x.upd (s.x.embLang l) (s.x.d.stdNewline ts s.te)) items with seen := none } } : ES) = _
    rw [h5]
    rfl
  | checkBlank =>
    have e1 : ∀ s' : ES, s'.x.d.ent = s.x.d.ent → M.callback buf l ts s' = match blankEntry buf (s'.np - 1) with
        | none => s'
        | some p => { s' with x := s'.x.upd l (s'.x.d.stdNewline ts (p + 1)), np := p + 1, te := p + 1 } := by
      intro s' h; unfold Multi.callback; dsimp only; rw [h, ho]; rfl
    have e2 : (esQ s items).np = s.np := rfl
    rw [e1 _ he, e1 _ rfl, e2]
    cases blankEntry buf (s.np - 1) with
    | none => exact Gives.pure ⟨hx, rfl⟩
    | some p =>
      dsimp only
      rw [ex, stdNewline_q]
      exact Gives.pure (IsS.of (upd_q' hx ((stdNewline_queue _ _ _).trans hx.1)) rfl)
  | nop =>
    have e1 : ∀ s' : ES, s'.x.d.ent = s.x.d.ent → M.callback buf l ts s' = s' := by
      intro s' h; unfold Multi.callback; dsimp only; rw [h, ho]
    rw [e1 _ he, e1 _ rfl]
    exact Gives.pure ⟨hx, rfl⟩

theorem eact_ok {al : Alloc} (hal : Fresh al) (M : Multi) (buf : List Byte) (ts : Nat) {items : List Item} {s : ES}
    (hx : s.x.d.queue = [] ∧ s.x.qlangs = []) (a : Act) :
    Gives m0 items (eact al M buf ts s a) (IsS (M.act buf ts (esQ s items) a)) := by
  cases a with
  | enqueue =>
    refine Gives.bind (enqueueAct_ok hx.1) ?_
    rintro it d' ⟨⟨h1, h2⟩, rfl⟩
    refine Gives.pure ⟨⟨h1, hx.2⟩, ?_⟩
    have : M.act buf ts (esQ s items) .enqueue = { s with x := { withE s.x items with d := (withQ s.x.d items).actEnqueue, qlangs := [] } } := rfl
    rw [this, ← h2]
    rfl
  | commit => exact Gives.bind (ecommit_ok hx) fun it x h => Gives.pure (IsS.of h rfl)
  | cb => exact ecallback_ok hal M buf 0 ts hx
  | comment =>
    refine Gives.pure ⟨⟨(actComment_queue s.x.d ts).trans hx.1, hx.2⟩, ?_⟩
    have : M.act buf ts (esQ s items) .comment = { s with x := { withE s.x items with d := (withQ s.x.d items).actComment ts } } := rfl
    rw [this, actComment_q]
    rfl
  | setEnt e => exact Gives.pure ⟨hx, rfl⟩
  | code => exact Gives.pure ⟨hx, rfl⟩
  | nestRes => exact Gives.pure ⟨hx, rfl⟩
  | nestInc => exact Gives.pure ⟨hx, rfl⟩
  | nestDec => exact Gives.pure ⟨hx, rfl⟩
  | fhold n => exact Gives.pure ⟨hx, rfl⟩
  | emb y =>
    cases y with
    | cb l => exact ecallback_ok hal M buf l ts hx
    | eofCommit =>
      have e1 : ∀ s' : ES, M.act buf ts s' (.emb .eofCommit) = if buf.length < s'.np then { s' with x := s'.x.actCommit } else s' := fun _ => rfl
      rw [e1]
      have e2 : (esQ s items).np = s.np := rfl
      rw [e2]
      unfold eact
      dsimp only
      split
      · exact Gives.bind (ecommit_ok hx) fun it x h => Gives.pure (IsS.of h rfl)
      · exact Gives.pure ⟨hx, rfl⟩
    | outry =>
      unfold eact Multi.act EData.outry
      cases h1 : s.x.d.lcc <;> cases h2 : s.x.d.wlc <;> refine Gives.pure ?_ <;> simp [h1, h2, esQ, withE, withQ, IsS, hx]
    | saw l => exact Gives.pure ⟨hx, rfl⟩
    | sawCall l m => exact Gives.pure ⟨hx, rfl⟩
    | back => exact Gives.pure ⟨hx, rfl⟩
    | ret => exact Gives.pure ⟨hx, rfl⟩
    | goto m => exact Gives.pure ⟨hx, rfl⟩
    | indInc => exact Gives.pure ⟨hx, rfl⟩
    | indRes => exact Gives.pure ⟨hx, rfl⟩
    | indSet => exact Gives.pure ⟨hx, rfl⟩

theorem eacts_ok {al : Alloc} (hal : Fresh al) (M : Multi) (buf : List Byte) (ts : Nat) : ∀ (as : List Act) {items : List Item} {s : ES}
    (_ : s.x.d.queue = [] ∧ s.x.qlangs = []), Gives m0 items (eacts al M buf ts s as) (IsS (M.acts buf ts (esQ s items) as))
  | [], _, _, hx => Gives.pure ⟨hx, rfl⟩
  | a :: r, items, s, hx => by
    refine Gives.bind (eact_ok hal M buf ts hx a) ?_
    rintro it s' ⟨h1, h2⟩
    unfold Multi.acts
    dsimp only
    rw [← h2]
    have ej : (esQ s' it).jump = s'.jump := rfl
    rw [ej]
    split
    · exact Gives.pure ⟨h1, rfl⟩
    · exact eacts_ok hal M buf ts r h1

theorem erunEnd_ok {al : Alloc} (hal : Fresh al) (M : Multi) (buf : List Byte) (ts : Nat) {items : List Item} {s : ES}
    (hx : s.x.d.queue = [] ∧ s.x.qlangs = []) (e : EEnd) :
    Gives m0 items (erunEnd al M buf ts s e) (IsS (M.runEnd buf ts (esQ s items) e)) := by
  cases e with
  | cb l => exact ecallback_ok hal M buf l ts hx
  | none => exact Gives.pure ⟨hx, rfl⟩
  | ecb l => exact Gives.pure ⟨hx, rfl⟩
  | call m => exact Gives.pure ⟨hx, rfl⟩
  | goto m => exact Gives.pure ⟨hx, rfl⟩

/-- The state of a parser, with its queue. -/
def ecfgQ (c : ECfg) (items : List Item) : ECfg := { c with x := withE c.x items }

def IsECfg (c : ECfg) (it : List Item) (c' : ECfg) : Prop := (c'.x.d.queue = [] ∧ c'.x.qlangs = []) ∧ ecfgQ c' it = c

theorem goOn_q (c : ECfg) (q : State) (s : ES) (acc : Option Nat) (items : List Item) (x0 : EData) :
    ({ c with x := x0 } : ECfg).goOn q (esQ s items) acc = ecfgQ (c.goOn q s acc) items := by
  unfold ECfg.goOn
  have ej : (esQ s items).jump = s.jump := rfl
  dsimp only
  rw [ej]
  cases s.jump with
  | none => rfl
  | some j =>
    cases j with
    | goto m => rfl
    | call m =>
      dsimp only
      split <;> rfl
    | ret =>
      dsimp only
      cases c.stack <;> rfl

theorem goOn_x (c : ECfg) (q : State) (s : ES) (acc : Option Nat) : (c.goOn q s acc).x = s.x := by
  unfold ECfg.goOn
  dsimp only
  cases s.jump with
  | none => rfl
  | some j =>
    cases j with
    | goto m => rfl
    | call m =>
      dsimp only
      split <;> rfl
    | ret =>
      dsimp only
      cases c.stack <;> rfl

theorem goOn_ok {c : ECfg} {q : State} {s : ES} {acc : Option Nat} {it : List Item} (hx : s.x.d.queue = [] ∧ s.x.qlangs = []) (x0 : EData) :
    IsECfg (({ c with x := x0 } : ECfg).goOn q (esQ s it) acc) it (c.goOn q s acc) :=
  ⟨by rw [goOn_x]; exact hx, (goOn_q c q s acc it x0).symm⟩

theorem efinish_ok {al : Alloc} (hal : Fresh al) (M : Multi) (buf : List Byte) {items : List Item} (c : ECfg) (ts : Nat) {x : EData}
    (hx : x.d.queue = [] ∧ x.qlangs = []) (te k : Nat) (x0 : EData) :
    Gives m0 items (efinish al M buf c ts x te k) (IsECfg (M.finish buf { c with x := x0 } ts (withE x items) te k)) := by
  refine Gives.bind (erunEnd_ok hal M buf ts (s := { x := x, np := te, te := te }) hx _) ?_
  rintro it s' ⟨h1, h2⟩
  refine Gives.pure ?_
  unfold Multi.finish
  dsimp only
  have h2' := h2.symm
  unfold esQ at h2'
  dsimp only at h2'
  rw [h2']
  exact goOn_ok (c := { c with ts := ts }) h1 x0

def IsEOpt (items : List Item) (c : Option ECfg) (it : List Item) (c' : Option ECfg) : Prop := match c' with
  | none => c = none ∧ it = items
  | some c' => ∃ x, c = some x ∧ IsECfg x it c'

theorem efallback_ok {al : Alloc} (hal : Fresh al) (M : Multi) (buf : List Byte) {items : List Item} (c : ECfg)
    (hx : c.x.d.queue = [] ∧ c.x.qlangs = []) :
    Gives m0 items (efallback al M buf c) (IsEOpt items (M.fallback buf (ecfgQ c items))) := by
  unfold efallback Multi.fallback
  have e1 : (ecfgQ c items).q = c.q := rfl
  have e2 : (ecfgQ c items).acc = c.acc := rfl
  have e3 : (ecfgQ c items).m = c.m := rfl
  rw [e1, e2, e3]
  dsimp only
  cases (M.mach c.m).nfa.accepts c.q with
  | some k =>
    refine Gives.bind (eacts_ok hal M buf c.ts ((M.mach c.m).nfa.leaveActs c.q) (s := { x := c.x, np := c.p + 1, te := c.te }) hx) ?_
    rintro it s' ⟨h1, h2⟩
    refine Gives.bind (efinish_ok hal M buf c c.ts h1 c.p k (withE c.x items)) ?_
    intro it' c' h
    refine Gives.pure ⟨_, rfl, ?_⟩
    have h3 : (M.acts buf c.ts (esQ { x := c.x, np := c.p + 1, te := c.te } items) ((M.mach c.m).nfa.leaveActs c.q)).x = withE s'.x it := by
      rw [← h2]; rfl
    rw [← h3] at h
    exact h
  | none =>
    dsimp only
    cases c.acc with
    | none => exact Gives.pure ⟨rfl, rfl⟩
    | some k => exact Gives.bind (efinish_ok hal M buf c c.ts hx c.te k (withE c.x items)) fun it' c' h => Gives.pure ⟨_, rfl, h⟩

theorem estep_ok {al : Alloc} (hal : Fresh al) (M : Multi) (buf : List Byte) {items : List Item} (c : ECfg)
    (hx : c.x.d.queue = [] ∧ c.x.qlangs = []) :
    Gives m0 items (estep al M buf c) (IsEOpt items (M.step buf (ecfgQ c items))) := by
  unfold estep Multi.step
  have e0 : (ecfgQ c items).bad = c.bad := rfl
  have e1 : (ecfgQ c items).q = c.q := rfl
  have e2 : (ecfgQ c items).acc = c.acc := rfl
  have e3 : (ecfgQ c items).p = c.p := rfl
  have e4 : (ecfgQ c items).x.d = withQ c.x.d items := rfl
  have e5 : (ecfgQ c items).m = c.m := rfl
  have e6 : (ecfgQ c items).ts = c.ts := rfl
  have e7 : (ecfgQ c items).te = c.te := rfl
  rw [e0, e1, e2, e3, e4, e5, e6, e7, condAt_q]
  split
  · exact Gives.pure ⟨rfl, rfl⟩
  · dsimp only
    cases (buf[c.p]?).bind fun b => (M.mach c.m).nfa.delta c.q b.toNat (condAt buf c.p c.x.d) with
    | none =>
      dsimp only
      split
      · exact Gives.pure ⟨rfl, rfl⟩
      · exact efallback_ok hal M buf c hx
    | some y =>
      obtain ⟨q', as⟩ := y
      dsimp only
      refine Gives.bind (eacts_ok hal M buf _ as (s := { x := c.x, np := c.p + 1, te := _ }) hx) ?_
      rintro it s' ⟨h1, h2⟩
      have h2' := h2.symm
      unfold esQ at h2'
      dsimp only at h2'
      have e8 : (ecfgQ c items).x = withE c.x items := rfl
      rw [e8, h2']
      have ej : (esQ s' it).jump = s'.jump := rfl
      have h3 : ({ x := withE s'.x it, np := s'.np, te := s'.te, jump := s'.jump } : ES) = esQ s' it := rfl
      rw [h3, ej]
      split
      · exact Gives.pure ⟨_, rfl, goOn_ok (c := { c with ts := _ }) h1 (withE c.x items)⟩
      · split
        · refine Gives.bind (efinish_ok hal M buf c _ h1 s'.np _ (withE c.x items)) ?_
          intro it' c' h
          exact Gives.pure ⟨_, rfl, h⟩
        · exact Gives.pure ⟨_, rfl, goOn_ok (c := { c with ts := _ }) h1 (withE c.x items)⟩

theorem erun_ok {al : Alloc} (hal : Fresh al) (M : Multi) (buf : List Byte) : ∀ (n : Nat) {items : List Item} (c : ECfg)
    (_ : c.x.d.queue = [] ∧ c.x.qlangs = []), Gives m0 items (erun al M buf n c) (IsECfg (M.run buf n (ecfgQ c items)))
  | 0, _, _, hx => Gives.pure ⟨hx, rfl⟩
  | n + 1, items, c, hx => by
    refine Gives.bind (estep_ok hal M buf c hx) ?_
    rintro it (_ | c') h
    · obtain ⟨hy, rfl⟩ := h
      refine Gives.pure ⟨hx, ?_⟩
      unfold Multi.run
      rw [hy]
    · obtain ⟨y, hy, h1, h2⟩ := h
      refine (erun_ok hal M buf n c' h1).post ?_
      intro it' c'' h'
      unfold Multi.run
      rw [hy]
      dsimp only
      rw [← h2]
      exact h'

end Ohcount.Queue
