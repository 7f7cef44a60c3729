import Verif.EmbedSolid

/-!
A second check that no callback is computed from a NULL `line_start`, for machines in which a line has always begun between
two tokens (the Ruby lines of Haml).
-/

namespace Ohcount.Ragel

/-- `use`: the machines; `on`: those among them in which `line_start` is set between tokens. -/
structure NOpt where
  use : List Nat
  on : List Nat

/-- `entity` if known; whether `line_start` is known not to be NULL; the last match. -/
structure NA where
  ent : Option Ent
  ls : Bool
  acc : Option Nat
  deriving DecidableEq, Repr

namespace NA

def cb (M : Multi) (a : NA) (l : Nat) : Option NA :=
  match a.ent with
  | none => none
  | some e => match M.op l e with
    | .ls | .code | .comment => some { a with ls := true }
    | .newline | .embNewline => some { a with ls := false }
    | .internalNewline | .embInternalNewline => if a.ls then some a else none
    | .checkBlank => none
    | .nop => some a

def act (M : Multi) (a : NA) : Act → Option (NA × Option Jump)
  | .setEnt e => some ({ a with ent := some e }, none)
  | .code | .comment => some ({ a with ls := true }, none)
  | .enqueue | .commit | .nestRes | .nestInc | .nestDec | .fhold _ => some (a, none)
  | .cb => (a.cb M 0).map (·, none)
  | .emb (.cb l) => (a.cb M l).map (·, none)
  | .emb (.sawCall _ m) => some (a, some (.call m))
  | .emb .back | .emb .ret => some (a, some .ret)
  | .emb (.goto m) => some (a, some (.goto m))
  | .emb _ => some (a, none)

def acts (M : Multi) : NA → List Act → Option (NA × Option Jump)
  | a, [] => some (a, none)
  | a, x :: r => match a.act M x with
    | none => none
    | some (a', some j) => some (a', some j)
    | some (a', none) => acts M a' r

/-- A jump from machine `m`. -/
def jumpOk (o : NOpt) (m : Nat) (ls : Bool) : Jump → Bool
  | .call m' | .goto m' => !o.on.contains m && o.use.contains m' && (!o.on.contains m' || ls)
  | .ret => true

/-- The end action of pattern `k`; `fin`: the end of the buffer has been reached. -/
def endOk (M : Multi) (o : NOpt) (m : Nat) (fin : Bool) (a : NA) (k : Nat) : Bool :=
  match (M.mach m).ends.getD k .none with
  | .none | .ecb _ => a.ls || fin || !o.on.contains m
  | .call m' => jumpOk o m a.ls (.call m')
  | .goto m' => jumpOk o m a.ls (.goto m')
  | .cb l => match a.cb M l with
    | none => false
    | some a' => a'.ls || fin || !o.on.contains m

def fallbackOk (M : Multi) (o : NOpt) (m : Nat) (fin : Bool) (acc : Option Nat) (l : List Act) (a : NA) : Bool :=
  match acc with
  | some k => match a.acts M l with
    | none => false
    | some (a', _) => endOk M o m fin a' k
  | none => match a.acc with | none => true | some k => endOk M o m false a k

/-- Between tokens. -/
def init (o : NOpt) (m : Nat) : NA := ⟨none, o.on.contains m, none⟩

def succ (M : Multi) (o : NOpt) (m : Nat) : Succ NA := fun st acc l a _ _ _ v =>
  let sc := (M.mach m).scanner
  match v with
  | none => if st || !sc || a.fallbackOk M o m false acc l then some none else none
  | some (as, k0, last0) =>
    let k? := if sc then k0 else none
    let last := sc && last0
    match NA.acts M { a with acc := if k?.isSome then k? else a.acc } as with
    | none => none
    | some (a2, some j) =>
      if jumpOk o m a2.ls j then (match j with | .call _ => if last then some none else some (some (init o m)) | _ => some none) else none
    | some (a2, none) =>
      if last then (if endOk M o m false a2 (k?.getD 0) then some none else none) else some (some a2)

def eofOk (M : Multi) (o : NOpt) (m : Nat) : EofOk NA := fun st acc l a =>
  st || !(M.mach m).scanner || a.fallbackOk M o m true acc l

end NA

/-- The static check of machine `m`, with its table. -/
structure NCert (M : Multi) (o : NOpt) (m : Nat) where
  dfa : Dfa (M.mach m).nfa
  tab : List (List NA)
  closed : closed dfa.rows tab (NA.init o m) (NA.succ M o m) (NA.eofOk M o m) = true

/-! ### Variables -/

/-- No callback has been computed from a NULL pointer, and a line with code or a comment has begun. -/
structure NOk (d : Data) : Prop where
  ub : d.ub = false
  flag : d.lcc = true ∨ d.wlc = true → d.ls ≠ none
  que : d.inq = true → d.lastLcc = true ∨ d.lastWlc = true → d.lastLs ≠ none

namespace NOk
variable {d : Data}

theorem deq (h : NOk d) : NOk d.deq := by
  unfold Data.deq
  split
  · rename_i hi
    exact ⟨h.ub, h.que hi, fun g => by cases g⟩
  · exact h

theorem actCode (h : NOk d) (ts : Nat) : NOk (d.actCode ts) ∧ (d.actCode ts).ls ≠ none := by
  have : (d.actCode ts).ls ≠ none := by
    unfold Data.actCode
    dsimp only
    split
    · nofun
    · rename_i hh
      cases hl : d.lcc with
      | true => exact h.flag (.inl hl)
      | false =>
        intro hn
        rw [hl, hn] at hh
        exact hh rfl
  exact ⟨⟨h.ub, fun _ => this, h.que⟩, this⟩

theorem actComment (h : NOk d) (ts : Nat) : NOk (d.actComment ts) ∧ (d.actComment ts).ls ≠ none := by
  unfold Data.actComment
  split
  · rename_i hl
    exact ⟨h, h.flag (.inl hl)⟩
  · have : (if d.ls.isNone = true then some ts else d.ls) ≠ none := by
      split
      · nofun
      · rename_i hh
        intro hn
        rw [hn] at hh
        exact hh rfl
    exact ⟨⟨h.ub, fun _ => this, h.que⟩, this⟩

theorem mLs (h : NOk d) (ts : Nat) : NOk (d.mLs ts) ∧ (d.mLs ts).ls ≠ none := by
  have this : (d.mLs ts).ls ≠ none := by
    unfold Data.mLs
    dsimp only
    split
    · nofun
    · rename_i hh
      intro hn
      rw [hn] at hh
      exact hh rfl
  exact ⟨⟨h.deq.ub, fun _ => this, h.deq.que⟩, this⟩

theorem actEnqueue (h : NOk d) : NOk d.actEnqueue := ⟨h.ub, h.flag, fun _ => h.flag⟩

theorem actCommit (h : NOk d) : NOk d.actCommit ∧ d.actCommit.ls = d.ls := by
  unfold Data.actCommit
  split
  · exact ⟨⟨h.ub, h.flag, fun g => by cases g⟩, rfl⟩
  · exact ⟨h, rfl⟩

theorem emit (h : NOk d) (q : Bool) (k : Kind) {s : Option Nat} (hs : s ≠ none) (e : Nat) :
    NOk (d.emit q k s e) := by
  unfold Data.emit
  split
  · exact absurd rfl hs
  · split <;> exact ⟨h.ub, h.flag, h.que⟩

theorem clear (h : NOk d) (l : Option Nat) : NOk { d with wlc := false, lcc := false, ls := l } :=
  ⟨h.ub, (by rintro (g | g) <;> cases g), h.que⟩

theorem stdInternalNewline (h : NOk d) (hl : d.ls ≠ none) (p : Nat) : NOk (d.stdInternalNewline p) := by
  unfold Data.stdInternalNewline
  refine NOk.clear (d := if Data.after p d.ls then d.emit d.inq d.kind d.ls p else d) ?_ _
  split
  · exact h.emit _ _ hl _
  · exact h

theorem stdNewline (h : NOk d) (ts te : Nat) : NOk (d.stdNewline ts te) := by
  unfold Data.stdNewline
  replace h := h.deq
  generalize d.deq = d at h
  refine NOk.clear (d := if Data.after te d.ls then
      (if d.lcc then d.emit false .lcode d.ls te
       else if d.wlc then d.emit false .lcomment d.ls te
       else d.emit false .lblank (some ts) te)
    else d) ?_ _
  split
  · split
    · rename_i hl
      exact h.emit _ _ (h.flag (.inl hl)) _
    · split
      · rename_i hw
        exact h.emit _ _ (h.flag (.inr hw)) _
      · exact h.emit _ _ (by nofun) _
  · exact h

theorem last (h : NOk d) (n : Nat) : (d.processLastLine n).ub = false := by
  unfold Data.processLastLine
  split
  · rename_i hh
    have hl : d.ls ≠ none := h.flag (by rw [Bool.or_eq_true] at hh; exact hh.symm)
    split <;> exact (h.emit _ _ hl _).ub
  · exact h.ub

end NOk

/-! ### Actions -/

/-- During the actions of a transition. -/
structure NI (a : NA) (s : ES) : Prop where
  ok : NOk s.x.d
  ent : ∀ e, a.ent = some e → s.x.d.ent = e
  ls : a.ls = true → s.x.d.ls ≠ none

theorem NI.cb {M : Multi} {buf : List Byte} {ts l : Nat} {a a' : NA} {s : ES} (h : NI a s) (ha : a.cb M l = some a') :
    NI a' (M.callback buf l ts s) ∧ (M.callback buf l ts s).jump = s.jump ∧ (M.callback buf l ts s).np = s.np ∧ a'.acc = a.acc := by
  obtain ⟨h1, h2, h3⟩ := h
  unfold NA.cb at ha
  split at ha
  · cases ha
  rename_i e he
  have hd := h2 e he
  have hk : M.op l s.x.d.ent ≠ .checkBlank := by
    intro g
    rw [hd] at g
    rw [g] at ha
    cases ha
  obtain ⟨e1, _, e3, e4⟩ := callback_keeps M buf l ts s hk
  refine ⟨?_, e3, e1, ?_⟩
  · refine ⟨?_, ?_, ?_⟩
    · unfold Multi.callback
      dsimp only
      rw [hd]
      generalize M.op l e = op at ha
      cases op with
      | ls => exact (h1.mLs ts).1
      | code => exact (h1.deq.actCode ts).1
      | comment => exact (h1.deq.actComment ts).1
      | internalNewline =>
        dsimp only at ha
        split at ha
        · rename_i hl; exact h1.stdInternalNewline (h3 hl) _
        · cases ha
      | newline => exact h1.stdNewline _ _
      | embInternalNewline =>
        dsimp only at ha
        split at ha
        · rename_i hl; exact h1.stdInternalNewline (h3 hl) _
        · cases ha
      | embNewline => exact h1.stdNewline _ _
      | checkBlank => cases ha
      | nop => exact h1
    · intro e' he'
      rw [e4]
      refine h2 e' ?_
      rw [← he']
      generalize M.op l e = op at ha
      cases op <;> dsimp only at ha <;> first
        | (injection ha with ha; subst ha; rfl)
        | (split at ha <;> first | (injection ha with ha; subst ha; rfl) | cases ha)
        | cases ha
    · intro hl
      unfold Multi.callback
      dsimp only
      rw [hd]
      generalize M.op l e = op at ha
      cases op with
      | ls => exact (h1.mLs ts).2
      | code => exact (h1.deq.actCode ts).2
      | comment => exact (h1.deq.actComment ts).2
      | internalNewline => exact fun g => by cases g
      | newline => injection ha with ha; subst ha; cases hl
      | embInternalNewline => exact fun g => by cases g
      | embNewline => injection ha with ha; subst ha; cases hl
      | checkBlank => cases ha
      | nop => injection ha with ha; subst ha; exact h3 hl
  · generalize M.op l e = op at ha
    cases op <;> dsimp only at ha <;> first
      | (injection ha with ha; subst ha; rfl)
      | (split at ha <;> first | (injection ha with ha; subst ha; rfl) | cases ha)
      | cases ha

theorem NI.act {M : Multi} {buf : List Byte} {ts : Nat} {a a' : NA} {s : ES} {x : Act} {j : Option Jump} (h : NI a s)
    (hj : s.jump = none) (ha : a.act M x = some (a', j)) :
    NI a' (M.act buf ts s x) ∧ (M.act buf ts s x).jump = j ∧ a'.acc = a.acc := by
  have hcb : ∀ l, (a.cb M l).map (·, none) = some (a', j) →
      NI a' (M.callback buf l ts s) ∧ (M.callback buf l ts s).jump = j ∧ a'.acc = a.acc := by
    intro l hc
    cases hx : a.cb M l with
    | none => rw [hx] at hc; cases hc
    | some a1 =>
      rw [hx] at hc
      simp only [Option.map_some, Option.some.injEq, Prod.mk.injEq] at hc
      obtain ⟨rfl, rfl⟩ := hc
      obtain ⟨g1, g2, _, g3⟩ := h.cb (buf := buf) (ts := ts) hx
      exact ⟨g1, g2.trans hj, g3⟩
  obtain ⟨h1, h2, h3⟩ := h
  have commit : NI a { s with x := s.x.actCommit } := by
    unfold EData.actCommit
    split
    · exact ⟨h1.actCommit.1, fun e he => (actCommit_ent _).trans (h2 e he), fun hl => by
        show s.x.d.actCommit.ls ≠ none
        rw [h1.actCommit.2]
        exact h3 hl⟩
    · exact ⟨h1, h2, h3⟩
  cases x with
  | cb => exact hcb 0 ha
  | emb e =>
    cases e with
    | cb l => exact hcb l ha
    | outry =>
      simp only [NA.act, Option.some.injEq, Prod.mk.injEq] at ha; obtain ⟨rfl, rfl⟩ := ha
      refine ⟨?_, hj, rfl⟩
      show NI a { s with x := s.x.outry }
      unfold EData.outry
      split <;> exact ⟨h1, h2, h3⟩
    | saw l =>
      simp only [NA.act, Option.some.injEq, Prod.mk.injEq] at ha; obtain ⟨rfl, rfl⟩ := ha
      exact ⟨⟨h1.clear s.x.d.ls, h2, h3⟩, hj, rfl⟩
    | sawCall l m =>
      simp only [NA.act, Option.some.injEq, Prod.mk.injEq] at ha; obtain ⟨rfl, rfl⟩ := ha
      exact ⟨⟨h1.clear s.x.d.ls, h2, h3⟩, rfl, rfl⟩
    | back =>
      simp only [NA.act, Option.some.injEq, Prod.mk.injEq] at ha; obtain ⟨rfl, rfl⟩ := ha
      exact ⟨⟨h1, h2, h3⟩, rfl, rfl⟩
    | ret =>
      simp only [NA.act, Option.some.injEq, Prod.mk.injEq] at ha; obtain ⟨rfl, rfl⟩ := ha
      exact ⟨⟨h1, h2, h3⟩, rfl, rfl⟩
    | goto m =>
      simp only [NA.act, Option.some.injEq, Prod.mk.injEq] at ha; obtain ⟨rfl, rfl⟩ := ha
      exact ⟨⟨h1, h2, h3⟩, rfl, rfl⟩
    | eofCommit =>
      simp only [NA.act, Option.some.injEq, Prod.mk.injEq] at ha; obtain ⟨rfl, rfl⟩ := ha
      simp only [Multi.act]
      split
      · exact ⟨commit, hj, trivial⟩
      · exact ⟨⟨h1, h2, h3⟩, hj, trivial⟩
    | _ =>
      simp only [NA.act, Option.some.injEq, Prod.mk.injEq] at ha; obtain ⟨rfl, rfl⟩ := ha
      exact ⟨⟨⟨h1.ub, h1.flag, h1.que⟩, h2, h3⟩, hj, rfl⟩
  | code =>
    simp only [NA.act, Option.some.injEq, Prod.mk.injEq] at ha; obtain ⟨rfl, rfl⟩ := ha
    exact ⟨⟨(h1.actCode ts).1, h2, fun _ => (h1.actCode ts).2⟩, hj, rfl⟩
  | comment =>
    simp only [NA.act, Option.some.injEq, Prod.mk.injEq] at ha; obtain ⟨rfl, rfl⟩ := ha
    exact ⟨⟨(h1.actComment ts).1, fun e he => (actComment_ent _ _).trans (h2 e he), fun _ => (h1.actComment ts).2⟩, hj, rfl⟩
  | setEnt e =>
    simp only [NA.act, Option.some.injEq, Prod.mk.injEq] at ha; obtain ⟨rfl, rfl⟩ := ha
    exact ⟨⟨⟨h1.ub, h1.flag, h1.que⟩, (fun e' he => by injection he), h3⟩, hj, rfl⟩
  | enqueue =>
    simp only [NA.act, Option.some.injEq, Prod.mk.injEq] at ha; obtain ⟨rfl, rfl⟩ := ha
    exact ⟨⟨h1.actEnqueue, h2, h3⟩, hj, rfl⟩
  | commit =>
    simp only [NA.act, Option.some.injEq, Prod.mk.injEq] at ha; obtain ⟨rfl, rfl⟩ := ha
    exact ⟨commit, hj, rfl⟩
  | _ =>
    simp only [NA.act, Option.some.injEq, Prod.mk.injEq] at ha; obtain ⟨rfl, rfl⟩ := ha
    exact ⟨⟨⟨h1.ub, h1.flag, h1.que⟩, h2, h3⟩, hj, rfl⟩

theorem NI.acts {M : Multi} {buf : List Byte} {ts : Nat} : ∀ {l : List Act} {a a' : NA} {s : ES} {j : Option Jump},
    NI a s → s.jump = none → a.acts M l = some (a', j) →
    NI a' (M.acts buf ts s l) ∧ (M.acts buf ts s l).jump = j ∧ a'.acc = a.acc
  | [], a, a', s, j, h, hj, ha => by
    simp only [NA.acts, Option.some.injEq, Prod.mk.injEq] at ha; obtain ⟨rfl, rfl⟩ := ha
    exact ⟨h, hj, rfl⟩
  | x :: r, a, a', s, j, h, hj, ha => by
    simp only [NA.acts] at ha
    simp only [Multi.acts]
    cases hx : a.act M x with
    | none => rw [hx] at ha; cases ha
    | some y =>
      obtain ⟨a1, j1⟩ := y
      rw [hx] at ha
      obtain ⟨g1, g2, g3⟩ := h.act (buf := buf) (ts := ts) hj hx
      cases j1 with
      | some j1 =>
        simp only [Option.some.injEq, Prod.mk.injEq] at ha; obtain ⟨rfl, rfl⟩ := ha
        rw [if_pos (by rw [g2]; rfl)]
        exact ⟨g1, g2, g3⟩
      | none =>
        rw [if_neg (by rw [g2]; simp)]
        obtain ⟨k1, k2, k3⟩ := NI.acts g1 g2 ha
        exact ⟨k1, k2, k3.trans g3⟩

/-! ### Runs -/

abbrev NCerts (M : Multi) (o : NOpt) := ∀ m ∈ o.use, NCert M o m

section
variable {M : Multi} {o : NOpt} (C : NCerts M o)

def NIn (m : Nat) (q : State) (a : NA) : Prop := ∃ h : m ∈ o.use, InTab (C m h).dfa.rows (C m h).tab q a

theorem NIn.init {m : Nat} (h : m ∈ o.use) : NIn C m [] (NA.init o m) := ⟨h, (closed_spec (C m h).dfa (C m h).closed).1⟩

/-- What is kept on `stack`: machines outside of `on`. -/
def NStack (c : ECfg) : Prop := ∀ y ∈ c.stack, o.on.contains y.1 = false ∧ NIn C y.1 y.2 (NA.init o y.1)

/-- Between two steps. -/
structure NGood (buf : List Byte) (c : ECfg) (a : NA) : Prop where
  tab : NIn C c.m c.q a
  ok : NOk c.x.d
  ent : ∀ e, a.ent = some e → c.x.d.ent = e
  ls : a.ls = true → c.x.d.ls ≠ none ∨ (c.q = [] ∧ buf[c.p]? = none)
  acc : a.acc = c.acc
  start : c.q = [] → c.acc = none
  stack : NStack C c

theorem NGood.again {buf : List Byte} {c : ECfg} (ht : NIn C c.m c.q (NA.init o c.m)) (hc : c.acc = none) (hk : NOk c.x.d)
    (hl : o.on.contains c.m = true → c.x.d.ls ≠ none ∨ (c.q = [] ∧ buf[c.p]? = none)) (hs : NStack C c) :
    NGood C buf c (NA.init o c.m) :=
  ⟨ht, hk, (by nofun), hl, hc.symm, fun _ => hc, hs⟩

def NNext (buf : List Byte) (c : ECfg) : Prop := (c.bad = true ∧ NOk c.x.d) ∨ ∃ a, NGood C buf c a

/-- After a jump. -/
theorem goOn_null {buf : List Byte} {c : ECfg} {q : State} {s : ES} {acc : Option Nat} {j : Jump} {ls : Bool} (hj : s.jump = some j)
    (hq : (∃ m, j = .call m) → NIn C c.m q (NA.init o c.m)) (ht : NA.jumpOk o c.m ls j = true) (hk : NOk s.x.d)
    (hl : ls = true → s.x.d.ls ≠ none) (hs : NStack C c) : NNext C buf (c.goOn q s acc) := by
  unfold NNext ECfg.goOn
  rw [hj]
  cases j with
  | goto m =>
    simp only [NA.jumpOk, Bool.and_eq_true, Bool.or_eq_true, Bool.not_eq_true', List.contains_iff_mem] at ht
    obtain ⟨⟨_, h2⟩, h3⟩ := ht
    refine .inr ⟨_, NGood.again C (NIn.init C h2) rfl hk (fun g => .inl (hl (h3.resolve_left ?_))) hs⟩
    dsimp only at g
    rw [g]
    decide
  | call m =>
    simp only [NA.jumpOk, Bool.and_eq_true, Bool.or_eq_true, Bool.not_eq_true', List.contains_iff_mem] at ht
    obtain ⟨⟨h1, h2⟩, h3⟩ := ht
    dsimp only
    split
    · refine .inr ⟨_, NGood.again C (NIn.init C h2) rfl hk (fun g => .inl (hl (h3.resolve_left ?_))) fun y hy => ?_⟩
      · dsimp only at g
        rw [g]
        decide
      · rcases List.mem_cons.mp hy with rfl | hy
        · exact ⟨h1, hq ⟨m, rfl⟩⟩
        · exact hs y hy
    · left; exact ⟨rfl, hk⟩
  | ret =>
    dsimp only
    split
    · left; exact ⟨rfl, hk⟩
    · rename_i m q' r hst
      unfold NStack at hs
      rw [hst] at hs
      obtain ⟨h1, h2⟩ := hs (m, q') (List.mem_cons_self ..)
      refine .inr ⟨_, NGood.again C h2 rfl hk (fun g => ?_) fun y hy => hs y (List.mem_cons_of_mem _ hy)⟩
      dsimp only at g h1
      rw [h1] at g
      cases g

/-- The end of a token. -/
theorem finish_null {buf : List Byte} {c : ECfg} {ts te k : Nat} {x : EData} {a : NA} {fin : Bool}
    (hm : c.m ∈ o.use) (hs : NStack C c) (h : NI a { x := x, np := te, te := te }) (hf : fin = true → buf[te]? = none)
    (hk : NA.endOk M o c.m fin a k = true) : NNext C buf (M.finish buf c ts x te k) := by
  have hi := NIn.init C hm
  unfold NA.endOk at hk
  unfold Multi.finish
  generalize (M.mach c.m).ends.getD k .none = en at hk ⊢
  have plain : ∀ (a' : NA) (s : ES), s.jump = none → s.np = te → NI a' s → (a'.ls || fin || !o.on.contains c.m) = true →
      NNext C buf (({ c with ts := ts }).goOn [] s none) := by
    intro a' s hj hp hn hh
    refine .inr ⟨NA.init o c.m, ?_⟩
    unfold ECfg.goOn
    rw [hj]
    refine NGood.again C hi rfl hn.ok (fun g => ?_) hs
    dsimp only at g ⊢
    rw [g] at hh
    rcases or_true hh with hh | hh
    · rcases or_true hh with hh | hh
      · exact .inl (hn.ls hh)
      · right
        rw [hp]
        exact ⟨rfl, hf hh⟩
    · cases hh
  cases en with
  | none => exact plain a _ rfl rfl h hk
  | ecb l => exact plain a _ rfl rfl ⟨⟨h.ok.ub, h.ok.flag, h.ok.que⟩, h.ent, h.ls⟩ hk
  | call m => exact goOn_null C (j := .call m) (c := { c with ts := ts }) rfl (fun _ => hi) hk h.ok h.ls hs
  | goto m => exact goOn_null C (j := .goto m) (c := { c with ts := ts }) rfl (fun _ => hi) hk h.ok h.ls hs
  | cb l =>
    dsimp only at hk
    split at hk
    · cases hk
    · rename_i a' ha
      obtain ⟨g1, g2, g3, _⟩ := h.cb (buf := buf) (ts := ts) ha
      exact plain a' _ g2 g3 g1 hk

theorem efallback_null {buf : List Byte} {c c' : ECfg} {a : NA} {fin : Bool} (h : NGood C buf c a) (hq : c.q ≠ [])
    (hn : fin = true → buf[c.p]? = none)
    (hf : a.fallbackOk M o c.m fin ((M.mach c.m).nfa.accepts c.q) ((M.mach c.m).nfa.leaveActs c.q) = true)
    (hs : M.fallback buf c = some c') : NNext C buf c' := by
  obtain ⟨hm, _⟩ := h.tab
  have hls : a.ls = true → c.x.d.ls ≠ none := fun g => (h.ls g).resolve_right fun g => hq g.1
  unfold Multi.fallback at hs
  unfold NA.fallbackOk at hf
  dsimp only at hs
  split at hs
  · rename_i k hk
    rw [hk] at hf
    dsimp only at hf
    simp only [Option.some.injEq] at hs
    subst hs
    split at hf
    · cases hf
    · rename_i a' j ha
      obtain ⟨g, _, _⟩ := NI.acts (M := M) (buf := buf) (ts := c.ts) (s := { x := c.x, np := c.p + 1, te := c.te }) (a := a)
        ⟨h.ok, h.ent, hls⟩ rfl ha
      exact finish_null C hm h.stack ⟨g.ok, g.ent, g.ls⟩ hn hf
  · rename_i hk
    rw [hk] at hf
    dsimp only at hf
    split at hs
    · rename_i k hc
      simp only [Option.some.injEq] at hs
      subst hs
      rw [h.acc, hc] at hf
      exact finish_null C hm h.stack ⟨h.ok, h.ent, hls⟩ (by nofun) hf
    · cases hs

theorem estep_null {buf : List Byte} {c c' : ECfg} {a : NA} (h : NGood C buf c a) (hs : M.step buf c = some c') : NNext C buf c' := by
  obtain ⟨hm, hT⟩ := h.tab
  obtain ⟨he, hb⟩ := (closed_spec (C c.m hm).dfa (C c.m hm).closed).2 _ _ hT
  unfold Multi.step at hs
  split at hs
  · cases hs
  dsimp only at hs
  cases hbuf : buf[c.p]? with
  | none =>
    rw [hbuf] at hs
    simp only [Option.bind_none] at hs
    split at hs
    · cases hs
    · rename_i hc
      unfold NA.eofOk at he
      rw [Bool.or_eq_true] at he
      have hq : c.q ≠ [] := by
        intro g
        rw [g] at hc
        exact hc rfl
      exact efallback_null C h hq (fin := true) (fun _ => hbuf) (he.resolve_left hc) hs
  | some b =>
    obtain ⟨bb, _, r, hr, hy⟩ := hb b (condAt buf c.p c.x.d)
    rw [hbuf] at hs
    simp only [Option.bind_some] at hs
    have hls : a.ls = true → c.x.d.ls ≠ none := fun g => (h.ls g).resolve_right fun g => by rw [hbuf] at g; cases g.2
    cases hd : (M.mach c.m).nfa.delta c.q b.toNat (condAt buf c.p c.x.d) with
    | none =>
      rw [hd] at hs hr
      simp only [view, Option.map_none, NA.succ] at hr
      dsimp only at hs
      split at hs
      · cases hs
      · rename_i hc
        have hq : c.q ≠ [] := by
          intro g
          rw [g] at hc
          exact hc rfl
        split at hr
        · rename_i hk
          rw [Bool.or_eq_true] at hk
          exact efallback_null C h hq (fin := false) (by nofun) (hk.resolve_left hc) hs
        · cases hr
    | some v =>
      obtain ⟨q', as⟩ := v
      rw [hd] at hs hr hy
      simp only [view, Option.map_some, NA.succ] at hr
      dsimp only at hs
      generalize (if ((M.mach c.m).scanner && c.q.isEmpty) = true then c.p else c.ts) = ts at hs
      generalize (if (M.mach c.m).scanner = true then (M.mach c.m).nfa.accepts q' else none) = k? at hs hr
      generalize hl : ((M.mach c.m).scanner && (M.mach c.m).nfa.isLast q') = last at hs hr
      generalize (if (k?.isSome && !last) = true then c.p + 1 else c.te) = te at hs
      cases hacts : NA.acts M { a with acc := if k?.isSome = true then k? else a.acc } as with
      | none => rw [hacts] at hr; cases hr
      | some v =>
        obtain ⟨a2, j⟩ := v
        rw [hacts] at hr
        have hX : NI { a with acc := if k?.isSome = true then k? else a.acc } { x := c.x, np := c.p + 1, te := te } :=
          ⟨h.ok, h.ent, hls⟩
        obtain ⟨g, gj, gacc⟩ := hX.acts (buf := buf) (ts := ts) rfl hacts
        generalize M.acts buf ts { x := c.x, np := c.p + 1, te := te } as = s at hs g gj
        cases j with
        | some j =>
          rw [if_pos (by rw [gj]; rfl)] at hs
          injection hs with hs
          subst hs
          dsimp only at hr
          split at hr
          · rename_i hjo
            refine goOn_null C (c := { c with ts := ts }) gj ?_ hjo g.ok g.ls h.stack
            rintro ⟨m', rfl⟩
            dsimp only at hr ⊢
            split at hr
            · rename_i hlast
              rw [if_pos hlast]
              exact NIn.init C hm
            · rename_i hlast
              rw [if_neg hlast]
              simp only [Option.some.injEq] at hr
              obtain ⟨q2, as2, e1, _, _, hT2⟩ := hy _ hr.symm
              simp only [Option.some.injEq, Prod.mk.injEq] at e1
              obtain ⟨rfl, rfl⟩ := e1
              exact ⟨hm, hT2⟩
          · cases hr
        | none =>
          rw [if_neg (by rw [gj]; simp)] at hs
          dsimp only at hr
          split at hs
          · rename_i hlast
            rw [if_pos hlast] at hr
            injection hs with hs
            subst hs
            split at hr
            · rename_i hk
              exact finish_null C hm h.stack ⟨g.ok, g.ent, g.ls⟩ (by nofun) hk
            · cases hr
          · rename_i hlast
            rw [if_neg hlast] at hr
            simp only [Option.some.injEq] at hr
            obtain ⟨q2, as2, e1, _, hne, hT2⟩ := hy _ hr.symm
            simp only [Option.some.injEq, Prod.mk.injEq] at e1
            obtain ⟨rfl, rfl⟩ := e1
            injection hs with hs
            subst hs
            refine .inr ⟨a2, ?_⟩
            unfold ECfg.goOn
            rw [gj]
            refine ⟨⟨hm, hT2⟩, g.ok, g.ent, fun hh => .inl (g.ls hh), ?_, fun hq => absurd hq hne, h.stack⟩
            dsimp only
            rw [gacc]
            dsimp only
            split
            · rfl
            · split
              · rename_i hqe
                rw [h.acc]
                exact h.start (by simpa using hqe)
              · exact h.acc

theorem erun_null {buf : List Byte} : ∀ (k : Nat) {c : ECfg}, NNext C buf c → NOk (M.run buf k c).x.d
  | 0, c, h => by
    rcases h with h | ⟨a, h⟩
    · exact h.2
    · exact h.ok
  | k + 1, c, h => by
    have e : M.run buf (k + 1) c = match M.step buf c with | none => c | some c' => M.run buf k c' := rfl
    rw [e]
    cases hs : M.step buf c with
    | none =>
      rcases h with h | ⟨a, h⟩
      · exact h.2
      · exact h.ok
    | some c' =>
      rcases h with h | ⟨a, h⟩
      · unfold Multi.step at hs
        rw [if_pos h.1] at hs
        cases hs
      · exact erun_null k (estep_null C h hs)

end

/-- No line callback of a parser that passes the check is computed from a NULL `line_start`. -/
theorem final_not_null {P : EParser} (o : NOpt) (hu : P.line ∈ o.use) (ho : o.on.contains P.line = false)
    (hC : ∀ m ∈ o.use, Nonempty (NCert P.multi o m)) (l : ELeft) (buf : List Byte) : (P.final P.multi l buf).d.ub = false := by
  have C : NCerts P.multi o := fun m hm => Classical.choice (hC m hm)
  have hE : NOk (eexec P.multi P.line l buf).x.d := by
    refine erun_null C _ (.inr ⟨NA.init o P.line, NGood.again C (NIn.init C hu) rfl ⟨rfl, ?_, (by nofun)⟩ ?_ (fun _ h => nomatch h)⟩)
    · rintro (h | h) <;> cases h
    · intro g
      rw [show (einit P.line l).m = P.line from rfl, ho] at g
      cases g
  exact hE.last _

end Ohcount.Ragel
