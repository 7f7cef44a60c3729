import Verif.Ragel

/-!
The static variables that `init` does not assign (`last_line_start`, `last_line_contains_code`,
`last_whole_line_comment` and the queue of callbacks) are read only while `inqueue` is set, and
`enqueue`, the only place that sets it, assigns them.  So their old values have no effect.
-/

namespace Ohcount.Ragel

/-- The data with the variables that are not read reset. -/
def Data.norm (d : Data) : Data :=
  if d.inq then d else { d with lastLs := none, lastLcc := false, lastWlc := false, queue := [] }

def Cfg.norm (c : Cfg) : Cfg := { c with d := c.d.norm }

namespace Data

theorem norm_norm (d : Data) : d.norm.norm = d.norm := by
  unfold norm; cases h : d.inq <;> simp [h]

theorem norm_lcc (d : Data) : d.norm.lcc = d.lcc := by unfold norm; cases d.inq <;> rfl
theorem norm_nest (d : Data) : d.norm.nest = d.nest := by unfold norm; cases d.inq <;> rfl
theorem norm_ind (d : Data) : d.norm.ind = d.ind := by unfold norm; cases d.inq <;> rfl
theorem norm_prior (d : Data) : d.norm.prior = d.prior := by unfold norm; cases d.inq <;> rfl
theorem norm_out (d : Data) : d.norm.out = d.out := by unfold norm; cases d.inq <;> rfl
theorem norm_ent (d : Data) : d.norm.ent = d.ent := by unfold norm; cases d.inq <;> rfl
theorem norm_ents (d : Data) : d.norm.ents = d.ents := by unfold norm; cases d.inq <;> rfl

theorem norm_deq (d : Data) : d.norm.deq.norm = d.deq.norm := by
  unfold deq norm dequeue
  cases h : d.inq <;> simp [h]

end Data

theorem callback_norm (M : Machine) (d : Data) (p ts te : Nat) :
    (M.callback d.norm p ts te).norm = (M.callback d p ts te).norm := by
  unfold Machine.callback
  rw [Data.norm_ent]
  cases h : d.inq with
  | true =>
    have : d.norm = d := by unfold Data.norm; rw [h]; rfl
    rw [this]
  | false =>
    have : d.norm = { d with lastLs := none, lastLcc := false, lastWlc := false, queue := [] } := by
      unfold Data.norm; rw [h]; rfl
    rw [this]
    obtain ⟨ls, lcc, wlc, ent, inq, lastLs, lastLcc, lastWlc, queue, nest, out, ents, ub⟩ := d
    simp only at h
    subst h
    cases M.op ent with
    | ls => simp [Data.mLs, Data.deq, Data.norm]
    | code => simp [Data.mCode, Data.deq, Data.norm, Data.actCode]
    | comment => cases lcc <;> simp [Data.mComment, Data.deq, Data.norm, Data.actComment]
    | internalNewline =>
      cases ls with
      | none => simp [Data.stdInternalNewline, Data.norm, Data.emit, Data.after]
      | some x => by_cases hx : x < p <;> simp [Data.stdInternalNewline, Data.norm, Data.emit, Data.after, Data.kind, hx]
    | newline =>
      cases ls with
      | none => cases lcc <;> cases wlc <;> simp [Data.stdNewline, Data.norm, Data.emit, Data.after, Data.deq]
      | some x => by_cases hx : x < te <;> cases lcc <;> cases wlc <;> simp [Data.stdNewline, Data.norm, Data.emit, Data.after, Data.deq, hx]
    | nop => simp [Data.norm]

theorem act_norm (M : Machine) (ts te : Nat) (d : Data) (np : Nat) (a : Act) :
    (M.act ts te (d.norm, np) a).1.norm = (M.act ts te (d, np) a).1.norm ∧
    (M.act ts te (d.norm, np) a).2 = (M.act ts te (d, np) a).2 := by
  cases a with
  | cb => exact ⟨callback_norm M d _ _ _, rfl⟩
  | _ =>
    refine ⟨?_, rfl⟩
    cases h : d.inq with
    | true =>
      have : d.norm = d := by unfold Data.norm; rw [h]; rfl
      rw [this]
    | false =>
      have : d.norm = { d with lastLs := none, lastLcc := false, lastWlc := false, queue := [] } := by
        unfold Data.norm; rw [h]; rfl
      rw [this]
      obtain ⟨ls, lcc, wlc, ent, inq, lastLs, lastLcc, lastWlc, queue, nest, out, ents, ub⟩ := d
      simp only at h
      subst h
      cases lcc <;> simp [Machine.act, Data.norm, Data.actCode, Data.actComment, Data.actEnqueue, Data.actCommit]

theorem acts_norm (M : Machine) (ts te : Nat) (l : List Act) : ∀ (d d' : Data) (np : Nat), d.norm = d'.norm →
    (M.acts ts te (d, np) l).1.norm = (M.acts ts te (d', np) l).1.norm ∧
    (M.acts ts te (d, np) l).2 = (M.acts ts te (d', np) l).2 := by
  induction l with
  | nil => intro d d' np h; exact ⟨h, rfl⟩
  | cons a l ih =>
    intro d d' np h
    have h1 := act_norm M ts te d np a
    have h2 := act_norm M ts te d' np a
    rw [h] at h1
    have e1 : (M.act ts te (d, np) a).1.norm = (M.act ts te (d', np) a).1.norm := h1.1.symm.trans h2.1
    have e2 : (M.act ts te (d, np) a).2 = (M.act ts te (d', np) a).2 := h1.2.symm.trans h2.2
    show (M.acts ts te (M.act ts te (d, np) a) l).1.norm = (M.acts ts te (M.act ts te (d', np) a) l).1.norm ∧ _ = (M.acts ts te (M.act ts te (d', np) a) l).2
    have h3 := ih _ _ (M.act ts te (d, np) a).2 e1
    refine ⟨?_, ?_⟩
    · rw [show M.act ts te (d', np) a = ((M.act ts te (d', np) a).1, (M.act ts te (d, np) a).2) by rw [e2]]
      exact h3.1
    · rw [show M.act ts te (d', np) a = ((M.act ts te (d', np) a).1, (M.act ts te (d, np) a).2) by rw [e2]]
      exact h3.2

theorem runEnd_norm (M : Machine) (d d' : Data) (ts te k : Nat) (h : d.norm = d'.norm) :
    (M.runEnd d ts te k).norm = (M.runEnd d' ts te k).norm := by
  unfold Machine.runEnd
  cases M.ends.getD k .none with
  | none => exact h
  | cb => dsimp only; rw [← callback_norm M d, ← callback_norm M d', h]
  | ecb =>
    dsimp only
    have hi : d.inq = d'.inq := by
      have := congrArg Data.inq h
      unfold Data.norm at this
      cases h1 : d.inq <;> cases h2 : d'.inq <;> simp [h1, h2] at this ⊢
    have he : d.ent = d'.ent := by rw [← Data.norm_ent d, h, Data.norm_ent]
    have hes : d.ents = d'.ents := by rw [← Data.norm_ents d, h, Data.norm_ents]
    rw [he, hes]
    unfold Data.norm at h ⊢
    cases h1 : d.inq with
    | true =>
      have h2 : d'.inq = true := by rw [← hi, h1]
      simp only [h1, h2, if_true] at h ⊢
      rw [h]
    | false =>
      have h2 : d'.inq = false := by rw [← hi, h1]
      obtain ⟨ls, lcc, wlc, ent, inq, lastLs, lastLcc, lastWlc, queue, nest, out, ents, ub⟩ := d
      obtain ⟨ls', lcc', wlc', ent', inq', lastLs', lastLcc', lastWlc', queue', nest', out', ents', ub'⟩ := d'
      simp only at h1 h2
      subst h1; subst h2
      simp only [Bool.false_eq_true, if_false, Data.mk.injEq] at h ⊢
      simp [h]

theorem condAt_norm (buf : List Byte) (p : Nat) (d d' : Data) (h : d.norm = d'.norm) : condAt buf p d = condAt buf p d' := by
  have h1 : d.nest = d'.nest := by rw [← Data.norm_nest d, h, Data.norm_nest]
  have h2 : d.lcc = d'.lcc := by rw [← Data.norm_lcc d, h, Data.norm_lcc]
  have h3 : d.ind = d'.ind := by rw [← Data.norm_ind d, h, Data.norm_ind]
  have h4 : d.prior = d'.prior := by rw [← Data.norm_prior d, h, Data.norm_prior]
  funext c
  cases c <;> simp [condAt, h1, h2, h3, h4]

theorem finish_norm (M : Machine) (c : Cfg) (d d' : Data) (x x' : Data) (te k : Nat) (h : x.norm = x'.norm) :
    (M.finish { c with d := d } x te k).norm = (M.finish { c with d := d' } x' te k).norm := by
  unfold Machine.finish Cfg.norm
  dsimp only
  rw [runEnd_norm M x x' _ _ _ h]

theorem fallback_norm (M : Machine) (c : Cfg) (d d' : Data) (h : d.norm = d'.norm) :
    (M.fallback { c with d := d }).map Cfg.norm = (M.fallback { c with d := d' }).map Cfg.norm := by
  unfold Machine.fallback
  dsimp only
  split
  · simp only [Option.map_some, Option.some.injEq]
    exact finish_norm M c d d' _ _ _ _ (acts_norm M _ _ _ d d' _ h).1
  · split
    · simp only [Option.map_some, Option.some.injEq]
      unfold Machine.finish Cfg.norm
      dsimp only
      rw [runEnd_norm M d d' _ _ _ h]
    · rfl

theorem step_norm (M : Machine) (buf : List Byte) (c : Cfg) (d d' : Data) (h : d.norm = d'.norm) :
    (M.step buf { c with d := d }).map Cfg.norm = (M.step buf { c with d := d' }).map Cfg.norm := by
  unfold Machine.step
  dsimp only
  rw [condAt_norm buf c.p d d' h]
  split
  · split
    · rfl
    · exact fallback_norm M c d d' h
  · split
    · split
      · rfl
      · exact fallback_norm M c d d' h
    · rename_i q' as _
      generalize hts : (if c.q.isEmpty = true then c.p else c.ts) = ts
      generalize hte : (if (M.nfa.accepts q').isSome = true then c.p + 1 else c.te) = te
      have hs := acts_norm M ts te as d d' (c.p + 1) h
      rw [hs.2]
      split
      · simp only [Option.map_some, Option.some.injEq]
        unfold Machine.finish Cfg.norm
        dsimp only
        rw [runEnd_norm M _ _ _ _ _ hs.1]
      · simp only [Option.map_some, Option.some.injEq]
        unfold Cfg.norm
        dsimp only
        rw [hs.1]

theorem run_norm (M : Machine) (buf : List Byte) : ∀ (n : Nat) (c c' : Cfg), c.norm = c'.norm →
    (M.run buf n c).norm = (M.run buf n c').norm := by
  intro n
  induction n with
  | zero => intro c c' h; exact h
  | succ n ih =>
    intro c c' h
    have hd : c.d.norm = c'.d.norm := congrArg Cfg.d h
    have hc : c' = { c with d := c'.d } := by
      obtain ⟨q, p, ts, te, acc, d, backs, raw⟩ := c
      obtain ⟨q', p', ts', te', acc', d', backs', raw'⟩ := c'
      simp only [Cfg.norm, Cfg.mk.injEq] at h ⊢
      simp [h]
    have h1 := step_norm M buf c c.d c'.d hd
    rw [← hc] at h1
    show (match M.step buf c with | none => c | some x => M.run buf n x).norm
      = (match M.step buf c' with | none => c' | some x => M.run buf n x).norm
    have h1' : (M.step buf c).map Cfg.norm = (M.step buf c').map Cfg.norm := h1
    cases hs : M.step buf c with
    | none =>
      rw [hs] at h1'
      cases hs' : M.step buf c' with
      | none => exact h
      | some x => rw [hs'] at h1'; cases h1'
    | some x =>
      rw [hs] at h1'
      cases hs' : M.step buf c' with
      | none => rw [hs'] at h1'; cases h1'
      | some x' =>
        rw [hs'] at h1'
        simp only [Option.map_some, Option.some.injEq] at h1'
        exact ih x x' h1'

theorem exec_norm (M : Machine) (l l' : Leftover) (buf : List Byte) : (exec M l buf).norm = (exec M l' buf).norm :=
  run_norm M buf _ _ _ rfl

theorem processLastLine_norm (d d' : Data) (pe : Nat) (h : d.norm = d'.norm) :
    (d.processLastLine pe).out = (d'.processLastLine pe).out ∧ (d.processLastLine pe).ub = (d'.processLastLine pe).ub := by
  have h0 : ∀ d : Data, (d.norm.processLastLine pe).out = (d.processLastLine pe).out ∧ (d.norm.processLastLine pe).ub = (d.processLastLine pe).ub := by
    intro d
    obtain ⟨ls, lcc, wlc, ent, inq, lastLs, lastLcc, lastWlc, queue, nest, out, ents, ub⟩ := d
    cases inq <;> cases lcc <;> cases wlc <;> cases ls <;> simp [Data.norm, Data.processLastLine, Data.emit]
  rw [← (h0 d).1, ← (h0 d').1, ← (h0 d).2, ← (h0 d').2, h]
  exact ⟨rfl, rfl⟩

/-- What earlier parses left in the static variables has no effect on the callbacks. -/
theorem lineReports_leftover (M : Machine) (l l' : Leftover) (buf : List Byte) : lineReports M l buf = lineReports M l' buf :=
  (processLastLine_norm _ _ _ (congrArg Cfg.d (exec_norm M l l' buf))).1

theorem entityReports_leftover (M : Machine) (l l' : Leftover) (buf : List Byte) : entityReports M l buf = entityReports M l' buf := by
  have := congrArg Data.ents (congrArg Cfg.d (exec_norm M l l' buf))
  unfold entityReports
  simpa [Cfg.norm, Data.norm_ents] using this

/-! ### Histories -/

/-- A call of a parse function: the scanner it runs (the line scanner if `count` is 1, the entity scanner otherwise)
and the buffer. -/
structure Call where
  M : Machine
  buf : List Byte

/-- The callbacks of a call made when the static variables hold `l`. -/
def Call.callbacks (c : Call) (l : Leftover) : List Rep × List (Ent × Nat × Nat) :=
  (lineReports c.M l c.buf, entityReports c.M l c.buf)

/-- The static variables after a call. -/
def Call.after (c : Call) (l : Leftover) : Leftover :=
  let d := (exec c.M l c.buf).d
  ⟨d.lastLs, d.lastLcc, d.lastWlc, d.queue⟩

/-- The callbacks of each call of a sequence of calls, with the static variables handed on from call to call. -/
def history : Leftover → List Call → List (List Rep × List (Ent × Nat × Nat))
  | _, [] => []
  | l, c :: r => c.callbacks l :: history (c.after l) r

end Ohcount.Ragel
