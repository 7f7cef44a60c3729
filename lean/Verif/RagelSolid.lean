import Verif.RagelSafe

/-!
Where callbacks end: next to a byte that is neither a blank nor a tab, or at the end of the buffer.  `parser_callback` and
the callback of the annotate action skip blanks and tabs from the start of a code or comment line on
(src/sourcefile.c:181-188), without looking at its end; this keeps them inside the line.
The static part is a table for each machine, checked by evaluation.
-/

namespace Ohcount.Ragel

/-- The byte before position `e` is neither a blank nor a tab. -/
def Solid (buf : List Byte) (e : Nat) : Prop := ∃ (i : Nat) (b : Byte), e = i + 1 ∧ buf[i]? = some b ∧ b ≠ 32 ∧ b ≠ 9

/-- The byte before position `e`, or the byte there, is neither a blank nor a tab. -/
def Firm (buf : List Byte) (e : Nat) : Prop := Solid buf e ∨ Solid buf (e + 1)

/-- Abstract value: `entity` if known; whether the bytes before `p`, before `p - 1` and before `te` are known to be neither
blank nor tab; the last match. -/
structure WA where
  ent : Option Ent
  n1 : Bool
  n2 : Bool
  te : Bool
  acc : Option Nat
  deriving DecidableEq, Repr

def BK.solid : BK → Bool
  | .ws => false
  | _ => true

theorem BK.solid_of {b : Byte} (h : (bk b.toNat).solid = true) : b ≠ 32 ∧ b ≠ 9 := by
  constructor <;> (rintro rfl; revert h; decide)

namespace WA

def act (M : Machine) (a : WA) : Act → Option WA
  | .setEnt e => some { a with ent := some e }
  | .cb => match a.ent with
    | none => none
    | some e => match M.op e with
      | .newline => none
      | .internalNewline => if a.n1 || a.n2 then some a else none
      | _ => some a
  | .fhold _ => some { a with n1 := a.n2, n2 := false }
  | .emb _ => none
  | _ => some a

def acts (M : Machine) : WA → List Act → Option WA
  | a, [] => some a
  | a, x :: r => match a.act M x with | none => none | some a' => acts M a' r

/-- The end action of pattern `k`; `s1`, `s2`: the bytes before `te` and `te - 1` are neither blank nor tab. -/
def endOk (M : Machine) (ent : Option Ent) (s1 s2 : Bool) (k : Nat) : Bool :=
  match M.ends.getD k .none with
  | .cb => match ent with
    | none => false
    | some e => match M.op e with
      | .newline => s1
      | .internalNewline => s1 || s2
      | _ => true
  | _ => true

def fallbackOk (M : Machine) (acc : Option Nat) (l : List Act) (a : WA) : Bool :=
  match acc with
  | some k => match WA.acts M { a with n1 := false, n2 := a.n1 } l with
    | none => false
    | some a' => endOk M a'.ent a.n1 a.n2 k
  | none => match a.acc with | none => true | some k => endOk M a.ent a.te false k

def succ (M : Machine) : Succ WA := fun st acc l a _ k _ v =>
  match v with
  | none => if st || a.fallbackOk M acc l then some none else none
  | some (as, k?, last) =>
    match WA.acts M ⟨a.ent, k.solid, a.n1, if k?.isSome then k.solid else a.te, if k?.isSome then k? else a.acc⟩ as with
    | none => none
    | some a2 =>
      if last then (if endOk M a2.ent a2.n1 a2.n2 (k?.getD 0) then some none else none)
      else some (some a2)

def init : WA := ⟨none, false, false, false, none⟩

def eofOk (M : Machine) : EofOk WA := fun st acc l a => st || a.fallbackOk M acc l

end WA

/-- The static check of a machine, with its table. -/
structure WCert (M : Machine) where
  dfa : Dfa M.nfa
  tab : List (List WA)
  closed : closed dfa.rows tab WA.init (WA.succ M) (WA.eofOk M) = true

/-! ### Variables -/

/-- Callbacks made, and those queued that may still be made, end where they should. -/
structure Ends (buf : List Byte) (d : Data) : Prop where
  out : ∀ r ∈ d.out, Firm buf r.e
  que : d.inq = true → ∀ r ∈ d.queue, Firm buf r.e

namespace Ends
variable {buf : List Byte} {d : Data}

theorem same (h : Ends buf d) (d' : Data) (h1 : d'.out = d.out) (h2 : d'.inq = d.inq) (h3 : d'.queue = d.queue) : Ends buf d' :=
  ⟨by rw [h1]; exact h.out, by rw [h2, h3]; exact h.que⟩

theorem deq (h : Ends buf d) : Ends buf d.deq := by
  unfold Data.deq
  split
  · exact ⟨h.out, fun g => by cases g⟩
  · exact h

theorem actComment (h : Ends buf d) (ts : Nat) : Ends buf (d.actComment ts) := by
  unfold Data.actComment
  split
  · exact h
  · exact h.same _ rfl rfl rfl

theorem actCommit (h : Ends buf d) : Ends buf d.actCommit := by
  unfold Data.actCommit
  split
  · rename_i hi
    refine ⟨fun r hr => ?_, fun g => by cases g⟩
    rcases List.mem_append.mp hr with hr | hr
    · exact h.out r hr
    · exact h.que hi r hr
  · exact h

theorem emit (h : Ends buf d) (k : Kind) (s : Option Nat) {e : Nat} (he : Firm buf e) (q : Bool) : Ends buf (d.emit q k s e) := by
  unfold Data.emit
  split
  · exact h.same _ rfl rfl rfl
  · split
    · refine ⟨h.out, fun hi r hr => ?_⟩
      rcases List.mem_append.mp hr with hr | hr
      · exact h.que hi r hr
      · rw [List.mem_singleton.mp hr]; exact he
    · refine ⟨fun r hr => ?_, h.que⟩
      rcases List.mem_append.mp hr with hr | hr
      · exact h.out r hr
      · rw [List.mem_singleton.mp hr]; exact he

theorem stdInternalNewline' (h : Ends buf d) {p : Nat} (hp : Data.after p d.ls = true → Firm buf p) :
    Ends buf (d.stdInternalNewline p) := by
  unfold Data.stdInternalNewline
  refine Ends.same (d := if Data.after p d.ls then d.emit d.inq d.kind d.ls p else d) ?_ _ rfl rfl rfl
  split
  · rename_i ha
    exact h.emit _ _ (hp ha) _
  · exact h

theorem stdInternalNewline (h : Ends buf d) {p : Nat} (hp : Firm buf p) : Ends buf (d.stdInternalNewline p) :=
  h.stdInternalNewline' fun _ => hp

theorem stdNewline (h : Ends buf d) (ts : Nat) {te : Nat} (hp : Firm buf te) : Ends buf (d.stdNewline ts te) := by
  unfold Data.stdNewline
  replace h := h.deq
  generalize d.deq = d at h
  refine Ends.same (d := if Data.after te d.ls then
      (if d.lcc then d.emit false .lcode d.ls te
       else if d.wlc then d.emit false .lcomment d.ls te
       else d.emit false .lblank (some ts) te)
    else d) ?_ _ rfl rfl rfl
  split
  · split
    · exact h.emit _ _ hp _
    · split <;> exact h.emit _ _ hp _
  · exact h

/-- The last line may end at the end of the buffer. -/
theorem last (h : Ends buf d) (n : Nat) : ∀ r ∈ (d.processLastLine n).out, Firm buf r.e ∨ r.e = n := by
  have key : ∀ k, ∀ r ∈ (d.emit false k d.ls n).out, Firm buf r.e ∨ r.e = n := by
    intro k r hr
    unfold Data.emit at hr
    split at hr
    · exact .inl (h.out r hr)
    · rcases List.mem_append.mp (show r ∈ d.out ++ [_] by simpa using hr) with hr | hr
      · exact .inl (h.out r hr)
      · rw [List.mem_singleton.mp hr]; exact .inr rfl
  unfold Data.processLastLine
  split
  · split <;> exact key _
  · exact fun r hr => .inl (h.out r hr)

end Ends

/-! ### Actions -/

theorem callback_ends {M : Machine} {buf : List Byte} {d : Data} (h : Ends buf d) (p ts te : Nat)
    (h1 : M.op d.ent = .newline → Firm buf te) (h2 : M.op d.ent = .internalNewline → Firm buf p) :
    Ends buf (M.callback d p ts te) := by
  unfold Machine.callback
  split
  · exact h.deq.same _ rfl rfl rfl
  · exact h.deq.same _ rfl rfl rfl
  · exact h.deq.actComment ts
  · exact h.stdInternalNewline (h2 (by assumption))
  · exact h.stdNewline ts (h1 (by assumption))
  · exact h

/-- During the actions of a transition. -/
structure WInv (buf : List Byte) (a : WA) (s : Data × Nat) : Prop where
  ends : Ends buf s.1
  ent : ∀ e, a.ent = some e → s.1.ent = e
  n1 : a.n1 = true → Solid buf s.2
  n2 : a.n2 = true → Solid buf (s.2 - 1)

theorem callback_ent (M : Machine) (d : Data) (p ts te : Nat) : (M.callback d p ts te).ent = d.ent := by
  have he : ∀ (d : Data) (q : Bool) (k : Kind) (s : Option Nat) (e : Nat), (d.emit q k s e).ent = d.ent := by
    intro d q k s e; unfold Data.emit; split
    · rfl
    · split <;> rfl
  unfold Machine.callback
  split
  · exact deq_ent d
  · exact deq_ent d
  · unfold Data.mComment; rw [actComment_ent, deq_ent]
  · unfold Data.stdInternalNewline
    dsimp only
    split
    · exact he _ _ _ _ _
    · rfl
  · unfold Data.stdNewline
    dsimp only
    split
    · split
      · rw [he, deq_ent]
      · split <;> rw [he, deq_ent]
    · exact deq_ent d
  · rfl

theorem firm_pred {buf : List Byte} {p : Nat} (h : Solid buf p ∨ Solid buf (p - 1)) : Firm buf (p - 1) := by
  rcases h with h | h
  · obtain ⟨i, b, rfl, hb⟩ := h
    exact .inr ⟨i, b, by omega, hb⟩
  · exact .inl h

theorem WInv.act {M : Machine} {buf : List Byte} {ts te : Nat} {a a' : WA} {s : Data × Nat} {x : Act} (h : WInv buf a s)
    (ha : a.act M x = some a') : WInv buf a' (M.act ts te s x) ∧ a'.acc = a.acc ∧ a'.te = a.te := by
  obtain ⟨d, np⟩ := s
  obtain ⟨h1, h2, h3, h4⟩ := h
  dsimp only at h1 h2 h3 h4
  cases x <;> simp only [WA.act, Option.some.injEq, reduceCtorEq] at ha
  case setEnt e => subst ha; exact ⟨⟨h1.same _ rfl rfl rfl, (fun e' he => by injection he), h3, h4⟩, rfl, rfl⟩
  case code => subst ha; exact ⟨⟨h1.same _ rfl rfl rfl, h2, h3, h4⟩, rfl, rfl⟩
  case comment => subst ha; exact ⟨⟨h1.actComment ts, fun e he => (actComment_ent d ts).trans (h2 e he), h3, h4⟩, rfl, rfl⟩
  case enqueue => subst ha; exact ⟨⟨⟨h1.out, fun _ _ hr => nomatch hr⟩, h2, h3, h4⟩, rfl, rfl⟩
  case commit => subst ha; exact ⟨⟨h1.actCommit, fun e he => (actCommit_ent d).trans (h2 e he), h3, h4⟩, rfl, rfl⟩
  case cb =>
    cases he : a.ent with
    | none => rw [he] at ha; cases ha
    | some e =>
      rw [he] at ha
      dsimp only at ha
      have hd : d.ent = e := h2 e he
      have key : M.op e ≠ .newline ∧ (M.op e = .internalNewline → (a.n1 || a.n2) = true) ∧ a' = a := by
        split at ha
        · cases ha
        · rename_i ho
          split at ha
          · rename_i hn; injection ha with ha; exact ⟨by rw [ho]; nofun, fun _ => hn, ha.symm⟩
          · cases ha
        · rename_i o1 o2; injection ha with ha; exact ⟨o1, fun h => absurd h o2, ha.symm⟩
      obtain ⟨k1, k2, rfl⟩ := key
      refine ⟨⟨callback_ends h1 _ _ _ (fun h => absurd (hd ▸ h) k1) (fun h => ?_), ?_, h3, h4⟩, rfl, rfl⟩
      · have := k2 (hd ▸ h)
        rw [Bool.or_eq_true] at this
        exact firm_pred (this.imp h3 h4)
      · intro e' he'
        rw [show (M.act ts te (d, np) .cb).1 = M.callback d (np - 1) ts te from rfl, callback_ent]
        exact h2 e' he'
  case nestRes => subst ha; exact ⟨⟨h1.same _ rfl rfl rfl, h2, h3, h4⟩, rfl, rfl⟩
  case nestInc => subst ha; exact ⟨⟨h1.same _ rfl rfl rfl, h2, h3, h4⟩, rfl, rfl⟩
  case nestDec => subst ha; exact ⟨⟨h1.same _ rfl rfl rfl, h2, h3, h4⟩, rfl, rfl⟩
  case fhold i => subst ha; exact ⟨⟨h1, h2, h4, (fun h => by cases h)⟩, rfl, rfl⟩

theorem WInv.acts {M : Machine} {buf : List Byte} {ts te : Nat} : ∀ {l : List Act} {a a' : WA} {s : Data × Nat}, WInv buf a s →
    a.acts M l = some a' → WInv buf a' (M.acts ts te s l) ∧ a'.acc = a.acc ∧ a'.te = a.te
  | [], a, a', s, h, ha => by simp only [WA.acts, Option.some.injEq] at ha; subst ha; exact ⟨h, rfl, rfl⟩
  | x :: r, a, a', s, h, ha => by
    unfold WA.acts at ha
    split at ha
    · cases ha
    · rename_i b hb
      obtain ⟨g1, g2, g3⟩ := h.act (ts := ts) (te := te) hb
      obtain ⟨k1, k2, k3⟩ := WInv.acts (ts := ts) (te := te) g1 ha
      exact ⟨k1, k2.trans g2, k3.trans g3⟩

theorem runEnd_ends {M : Machine} {buf : List Byte} {d : Data} {ts te k : Nat} {ent : Option Ent} {s1 s2 : Bool} (h : Ends buf d)
    (he : ∀ e, ent = some e → d.ent = e) (h1 : s1 = true → Solid buf te) (h2 : s2 = true → Solid buf (te - 1))
    (hk : WA.endOk M ent s1 s2 k = true) : Ends buf (M.runEnd d ts te k) := by
  unfold WA.endOk at hk
  unfold Machine.runEnd
  split at hk
  · rename_i hc
    rw [hc]
    dsimp only
    split at hk
    · cases hk
    · rename_i e
      have hd := he e rfl
      refine callback_ends h _ _ _ (fun g => ?_) (fun g => ?_)
      · rw [hd] at g; rw [g] at hk; exact .inl (h1 hk)
      · rw [hd] at g; rw [g] at hk
        rw [Bool.or_eq_true] at hk
        exact firm_pred (hk.imp h1 h2)
  · rename_i hc
    cases hx : M.ends.getD k .none with
    | none => exact h
    | cb => exact absurd hx hc
    | ecb => exact h.same _ rfl rfl rfl

/-! ### Runs -/

structure WGood {M : Machine} (C : WCert M) (buf : List Byte) (c : Cfg) (a : WA) : Prop where
  tab : InTab C.dfa.rows C.tab c.q a
  inv : WInv buf a (c.d, c.p)
  acc : a.acc = c.acc
  te : a.te = true → Solid buf c.te

theorem WGood.ended {M : Machine} {C : WCert M} {buf : List Byte} {c : Cfg} (hq : c.q = []) (hc : c.acc = none) (h : Ends buf c.d) :
    WGood C buf c WA.init := by
  refine ⟨?_, ⟨h, (fun _ h => by cases h), (fun h => by cases h), (fun h => by cases h)⟩, by rw [hc]; rfl, (fun h => by cases h)⟩
  rw [hq]
  exact (closed_spec C.dfa C.closed).1

theorem fallback_solid {M : Machine} {C : WCert M} {buf : List Byte} {c c' : Cfg} {a : WA} (h : WGood C buf c a)
    (hf : a.fallbackOk M (M.nfa.accepts c.q) (M.nfa.leaveActs c.q) = true) (hs : M.fallback c = some c') : ∃ a', WGood C buf c' a' := by
  unfold Machine.fallback at hs
  unfold WA.fallbackOk at hf
  split at hs
  · rename_i k hk
    rw [hk] at hf
    dsimp only at hf
    simp only [Option.some.injEq] at hs
    subst hs
    split at hf
    · cases hf
    · rename_i a' ha
      obtain ⟨g, _, _⟩ := WInv.acts (M := M) (buf := buf) (ts := c.ts) (te := c.te) (s := (c.d, c.p + 1)) (a := { a with n1 := false, n2 := a.n1 })
        ⟨h.inv.ends, h.inv.ent, (fun h => by cases h), h.inv.n1⟩ ha
      exact ⟨_, WGood.ended rfl rfl (runEnd_ends g.ends g.ent h.inv.n1 h.inv.n2 hf)⟩
  · rename_i hk
    rw [hk] at hf
    dsimp only at hf
    split at hs
    · rename_i k hc
      simp only [Option.some.injEq] at hs
      subst hs
      rw [h.acc, hc] at hf
      exact ⟨_, WGood.ended rfl rfl (runEnd_ends h.inv.ends h.inv.ent h.te (fun h => by cases h) hf)⟩
    · cases hs

theorem step_solid {M : Machine} {C : WCert M} {buf : List Byte} {c c' : Cfg} {a : WA} (h : WGood C buf c a)
    (hq : c.q = [] → c.acc = none) (hs : M.step buf c = some c') : (∃ a', WGood C buf c' a') ∧ (c'.q = [] → c'.acc = none) := by
  obtain ⟨he, hb⟩ := (closed_spec C.dfa C.closed).2 _ _ h.tab
  unfold Machine.step at hs
  have hfb : ∀ {c'}, (if c.q.isEmpty = true then none else M.fallback c) = some c' →
      (c.q.isEmpty || a.fallbackOk M (M.nfa.accepts c.q) (M.nfa.leaveActs c.q)) = true → (∃ a', WGood C buf c' a') ∧ (c'.q = [] → c'.acc = none) := by
    intro c' hs hf
    cases hq : c.q.isEmpty with
    | true => rw [hq] at hs; cases hs
    | false =>
      rw [hq] at hs hf
      refine ⟨fallback_solid h hf hs, fun _ => ?_⟩
      simp only [Bool.false_eq_true, if_false] at hs
      unfold Machine.fallback at hs
      split at hs
      · injection hs with hs; subst hs; rfl
      · split at hs
        · injection hs with hs; subst hs; rfl
        · cases hs
  split at hs
  · exact hfb hs he
  · rename_i b hbuf
    obtain ⟨bb, _, r, hr, hy⟩ := hb b (condAt buf c.p c.d)
    split at hs
    · rename_i hd
      rw [hd] at hr
      refine hfb hs ?_
      simp only [view, Option.map_none, WA.succ] at hr
      split at hr
      · assumption
      · cases hr
    · rename_i q' as hd
      rw [hd] at hr hy
      simp only [view, Option.map_some, WA.succ] at hr
      have hb1 : (bk b.toNat).solid = true → Solid buf (c.p + 1) := fun g => ⟨c.p, b, rfl, hbuf, BK.solid_of g⟩
      split at hr
      · cases hr
      · rename_i a2 ha2
        dsimp only at hs
        generalize hts : (if c.q.isEmpty = true then c.p else c.ts) = ts at hs
        generalize hte : (if (M.nfa.accepts q').isSome = true then c.p + 1 else c.te) = te at hs
        have hW := WInv.acts (M := M) (buf := buf) (ts := ts) (te := te) (s := (c.d, c.p + 1))
          (WInv.mk (a := ⟨a.ent, (bk b.toNat).solid, a.n1, _, _⟩) h.inv.ends h.inv.ent hb1 h.inv.n1) ha2
        obtain ⟨g, g2, g3⟩ := hW
        dsimp only at g2 g3
        split at hs
        · rename_i hl
          rw [hl] at hr
          simp only [if_true] at hr
          injection hs with hs
          subst hs
          refine ⟨?_, fun _ => rfl⟩
          split at hr
          · rename_i hk
            exact ⟨_, WGood.ended rfl rfl (runEnd_ends g.ends g.ent g.n1 g.n2 hk)⟩
          · cases hr
        · rename_i hl
          rw [Bool.not_eq_true] at hl
          rw [hl] at hr
          simp only [Bool.false_eq_true, if_false, Option.some.injEq] at hr
          obtain ⟨q2, as2, e1, _, hne, hT⟩ := hy a2 hr.symm
          simp only [Option.some.injEq, Prod.mk.injEq] at e1
          obtain ⟨rfl, rfl⟩ := e1
          injection hs with hs
          subst hs
          refine ⟨⟨a2, hT, g, ?_, ?_⟩, fun h => absurd h hne⟩
          · rw [g2]
            dsimp only
            split
            · rfl
            · split
              · rename_i hqe
                rw [h.acc]
                exact hq (by simpa using hqe)
              · exact h.acc
          · intro ht
            rw [g3] at ht
            dsimp only at ht ⊢
            rw [← hte]
            split
            · rename_i hk; rw [if_pos hk] at ht; exact hb1 ht
            · rename_i hk; rw [if_neg hk] at ht; exact h.te ht

theorem run_solid {M : Machine} {C : WCert M} {buf : List Byte} : ∀ (k : Nat) {c : Cfg} {a : WA}, WGood C buf c a → (c.q = [] → c.acc = none) →
    Ends buf (M.run buf k c).d
  | 0, _, _, h, _ => h.inv.ends
  | k + 1, c, a, h, hq => by
    have e : M.run buf (k + 1) c = match M.step buf c with | none => c | some c' => M.run buf k c' := rfl
    rw [e]
    cases hs : M.step buf c with
    | none => exact h.inv.ends
    | some c' =>
      obtain ⟨⟨a', g⟩, g'⟩ := step_solid h hq hs
      exact run_solid k g g'

/-- Every callback ends next to a byte that is neither blank nor tab, or at the end of the buffer. -/
theorem lineReports_solid {M : Machine} (C : WCert M) (l : Leftover) (buf : List Byte) :
    ∀ r ∈ lineReports M l buf, Firm buf r.e ∨ r.e = buf.length := by
  refine Ends.last (run_solid _ (C := C) (a := WA.init) ?_ fun _ => rfl) _
  exact WGood.ended rfl rfl ⟨(fun _ h => nomatch h), (fun h => by cases h)⟩

end Ohcount.Ragel
