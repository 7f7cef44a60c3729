import Verif.EmbedShift

/-!
What a parser with embedded languages finds in a buffer does not depend on what it was used for before, and a buffer whose first
part consists of complete lines of the page is counted as its two parts.
-/

namespace Ohcount.Ragel

/-! ### Runs -/

namespace Multi
variable {M : Multi} {buf : List Byte}

theorem run_stopped {c : ECfg} (h : M.step buf c = none) : ∀ n, M.run buf n c = c
  | 0 => rfl
  | n + 1 => by unfold Multi.run; rw [h]

theorem run_add : ∀ (n k : Nat) (c : ECfg), M.run buf (n + k) c = M.run buf k (M.run buf n c)
  | 0, k, c => by rw [Nat.zero_add]; rfl
  | n + 1, k, c => by
    rw [show n + 1 + k = (n + k) + 1 by omega]
    show (match M.step buf c with | none => c | some c' => M.run buf (n + k) c') =
      M.run buf k (match M.step buf c with | none => c | some c' => M.run buf n c')
    cases h : M.step buf c with
    | none => rw [run_stopped h]
    | some c' => exact run_add n k c'

theorem run_unique {c : ECfg} {n k : Nat} (h : M.step buf (M.run buf n c) = none) (h' : M.step buf (M.run buf k c) = none) :
    M.run buf n c = M.run buf k c := by
  rcases Nat.le_total n k with g | g
  · rw [show k = n + (k - n) by omega, run_add, run_stopped h]
  · rw [show n = k + (n - k) by omega, run_add, run_stopped h']

end Multi

/-! ### What was parsed before does not matter -/

/-- Two runs that differ only in variables nobody reads. -/
structure Same (c c' : ECfg) : Prop where
  m : c'.m = c.m
  q : c'.q = c.q
  stack : c'.stack = c.stack
  p : c'.p = c.p
  ts : c'.ts = c.ts
  te : c'.te = c.te
  acc : c'.acc = c.acc
  bad : c'.bad = c.bad
  x : XRel 0 {} true c.x c'.x

structure SSame (s t : ES) : Prop where
  x : XRel 0 {} true s.x t.x
  np : t.np = s.np
  te : t.te = s.te
  jump : t.jump = s.jump

section
variable {M : Multi} {buf : List Byte}

theorem callback_same {s t : ES} (h : SSame s t) (l ts : Nat) : SSame (M.callback buf l ts s) (M.callback buf l ts t) := by
  obtain ⟨y, np, te, j⟩ := t
  obtain ⟨hx, rfl, rfl, rfl⟩ := h
  have h : SSame s ⟨y, s.np, s.te, s.jump⟩ := ⟨hx, rfl, rfl, rfl⟩
  have he : y.d.ent = s.x.d.ent := hx.ent rfl
  unfold Multi.callback
  dsimp only
  rw [he]
  cases ho : M.op l s.x.d.ent with
  | ls => exact ⟨h.x.upd l (h.x.d.mLs ts) (Ext.mLs _ _) (fun _ => by rw [mLs_ent, mLs_ent, he]), h.np, h.te, h.jump⟩
  | code => exact ⟨h.x.upd l (h.x.d.mCode ts) (Ext.mCode _ _) (fun _ => by rw [mCode_ent, mCode_ent, he]), h.np, h.te, h.jump⟩
  | comment => exact ⟨h.x.upd l (h.x.d.mComment ts) (Ext.mComment _ _) (fun _ => by rw [mComment_ent, mComment_ent, he]), h.np, h.te, h.jump⟩
  | internalNewline =>
    exact ⟨h.x.upd l (h.x.d.stdInternalNewline _) (Ext.stdInternalNewline _ _)
      (fun _ => by rw [stdInternalNewline_ent, stdInternalNewline_ent, he]), h.np, h.te, h.jump⟩
  | newline =>
    exact ⟨h.x.upd l (h.x.d.stdNewline _ _) (Ext.stdNewline _ _ _) (fun _ => by rw [stdNewline_ent, stdNewline_ent, he]), h.np, h.te, h.jump⟩
  | embInternalNewline =>
    dsimp only
    rw [h.x.embLang]
    exact ⟨(h.x.upd _ (h.x.d.stdInternalNewline _) (Ext.stdInternalNewline _ _)
      (fun _ => by rw [stdInternalNewline_ent, stdInternalNewline_ent, he])).unsee, h.np, h.te, h.jump⟩
  | embNewline =>
    dsimp only
    rw [h.x.embLang]
    exact ⟨(h.x.upd _ (h.x.d.stdNewline _ _) (Ext.stdNewline _ _ _) (fun _ => by rw [stdNewline_ent, stdNewline_ent, he])).unsee, h.np, h.te, h.jump⟩
  | checkBlank =>
    dsimp only
    cases hB : blankEntry buf (s.np - 1) with
    | none => exact h
    | some p => exact ⟨h.x.upd l (h.x.d.stdNewline _ _) (Ext.stdNewline _ _ _) (fun _ => by rw [stdNewline_ent, stdNewline_ent, he]), rfl, rfl, h.jump⟩
  | nop => exact h

theorem SSame.setX {s t : ES} (h : SSame s t) {x y : EData} (g : XRel 0 {} true x y) : SSame { s with x := x } { t with x := y } :=
  ⟨g, h.np, h.te, h.jump⟩

theorem act_same {s t : ES} (h : SSame s t) (ts : Nat) (a : Act) : SSame (M.act buf ts s a) (M.act buf ts t a) := by
  have hn := h.x.d
  cases a with
  | setEnt e => exact h.setX ⟨hn.setEnt e e, fun _ => rfl, h.x.langs, h.x.qlangs, h.x.elangs, h.x.seen⟩
  | code => exact h.setX (h.x.setD (hn.actCode ts) rfl h.x.ent)
  | comment =>
    refine h.setX (h.x.setD (hn.actComment ts) ?_ ?_)
    · unfold Data.actComment; split <;> rfl
    · intro g; rw [actComment_ent, actComment_ent]; exact h.x.ent g
  | enqueue => exact h.setX h.x.actEnqueue
  | commit => exact h.setX h.x.actCommit
  | cb => exact callback_same h 0 ts
  | nestRes => exact h.setX (h.x.setD ⟨hn.ls, hn.lcc, hn.wlc, hn.inq, hn.que, rfl, hn.ind, hn.prior, hn.out, hn.ents, hn.ub⟩ rfl h.x.ent)
  | nestInc => exact h.setX (h.x.setD ⟨hn.ls, hn.lcc, hn.wlc, hn.inq, hn.que, by dsimp only; rw [hn.nest], hn.ind, hn.prior, hn.out, hn.ents, hn.ub⟩ rfl h.x.ent)
  | nestDec => exact h.setX (h.x.setD ⟨hn.ls, hn.lcc, hn.wlc, hn.inq, hn.que, by dsimp only; rw [hn.nest], hn.ind, hn.prior, hn.out, hn.ents, hn.ub⟩ rfl h.x.ent)
  | fhold i => exact ⟨h.x, by show t.np - 1 = s.np - 1; rw [h.np], h.te, h.jump⟩
  | emb e =>
    cases e with
    | cb l => exact callback_same h l ts
    | outry => exact h.setX h.x.outry
    | saw l => exact h.setX (h.x.saw l)
    | sawCall l m => exact ⟨h.x.saw l, h.np, h.te, rfl⟩
    | back => exact ⟨h.x, rfl, h.te, rfl⟩
    | ret => exact ⟨h.x, h.np, h.te, rfl⟩
    | goto m => exact ⟨h.x, h.np, h.te, rfl⟩
    | indInc => exact h.setX (h.x.setD ⟨hn.ls, hn.lcc, hn.wlc, hn.inq, hn.que, hn.nest, by dsimp only; rw [hn.ind], hn.prior, hn.out, hn.ents, hn.ub⟩ rfl h.x.ent)
    | indRes => exact h.setX (h.x.setD ⟨hn.ls, hn.lcc, hn.wlc, hn.inq, hn.que, hn.nest, rfl, hn.prior, hn.out, hn.ents, hn.ub⟩ rfl h.x.ent)
    | indSet => exact h.setX (h.x.setD ⟨hn.ls, hn.lcc, hn.wlc, hn.inq, hn.que, hn.nest, hn.ind, hn.ind, hn.out, hn.ents, hn.ub⟩ rfl h.x.ent)
    | eofCommit =>
      unfold Multi.act
      dsimp only
      have hn := h.np
      by_cases g : buf.length < s.np
      · rw [if_pos g, if_pos (by omega)]; exact h.setX h.x.actCommit
      · rw [if_neg g, if_neg (by omega)]; exact h

theorem acts_same (ts : Nat) : ∀ (as : List Act) {s t : ES}, SSame s t → SSame (M.acts buf ts s as) (M.acts buf ts t as)
  | [], _, _, h => h
  | a :: r, s, t, h => by
    have h1 := act_same (M := M) (buf := buf) h ts a
    unfold Multi.acts
    dsimp only
    rw [h1.jump]
    split
    · exact h1
    · exact acts_same ts r h1

theorem runEnd_same {s t : ES} (h : SSame s t) (ts : Nat) (e : EEnd) : SSame (M.runEnd buf ts s e) (M.runEnd buf ts t e) := by
  cases e with
  | none => exact h
  | cb l => exact callback_same h l ts
  | ecb l =>
    refine h.setX ⟨?_, h.x.ent, h.x.langs, h.x.qlangs, ?_, h.x.seen⟩
    · refine ⟨h.x.d.ls, h.x.d.lcc, h.x.d.wlc, h.x.d.inq, h.x.d.que, h.x.d.nest, h.x.d.ind, h.x.d.prior, h.x.d.out, ?_, h.x.d.ub⟩
      dsimp only
      rw [h.x.d.ents, h.x.ent rfl, h.te, List.map_append, List.append_assoc]
      rfl
    · dsimp only
      rw [h.x.elangs, List.append_assoc]
  | call m => exact ⟨h.x, h.np, h.te, rfl⟩
  | goto m => exact ⟨h.x, h.np, h.te, rfl⟩

theorem goOn_same {c c' : ECfg} (h : Same c c') {s t : ES} (hs : SSame s t) (q : State) (acc : Option Nat) :
    Same (c.goOn q s acc) (c'.goOn q t acc) := by
  unfold ECfg.goOn
  dsimp only
  rw [hs.jump, h.stack]
  split
  · exact ⟨h.m, rfl, rfl, hs.np, h.ts, hs.te, rfl, h.bad, hs.x⟩
  · exact ⟨rfl, rfl, rfl, hs.np, h.ts, hs.te, rfl, h.bad, hs.x⟩
  · split
    · exact ⟨rfl, rfl, by dsimp only; rw [h.m], hs.np, h.ts, hs.te, rfl, h.bad, hs.x⟩
    · exact ⟨h.m, h.q, rfl, hs.np, h.ts, hs.te, rfl, rfl, hs.x⟩
  · split
    · exact ⟨h.m, h.q, rfl, hs.np, h.ts, hs.te, rfl, rfl, hs.x⟩
    · exact ⟨rfl, rfl, rfl, hs.np, h.ts, hs.te, rfl, h.bad, hs.x⟩

theorem finish_same {c c' : ECfg} (h : Same c c') (ts : Nat) {x y : EData} (hx : XRel 0 {} true x y) (te k : Nat) :
    Same (M.finish buf c ts x te k) (M.finish buf c' ts y te k) := by
  unfold Multi.finish
  have ht : Same { c with ts := ts } { c' with ts := ts } := ⟨h.m, h.q, h.stack, h.p, rfl, h.te, h.acc, h.bad, h.x⟩
  have := goOn_same ht (runEnd_same (s := { x := x, np := te, te := te }) (t := { x := y, np := te, te := te }) (M := M) (buf := buf) ⟨hx, rfl, rfl, rfl⟩ ts ((M.mach c.m).ends.getD k .none)) [] none
  rw [h.m]
  rw [h.m] at this
  exact this

theorem condAt_same {d e : Data} (h : VRel 0 {} d e) (p : Nat) : condAt buf p e = condAt buf p d := by
  funext c
  cases c <;> simp only [condAt, h.nest, h.lcc, h.ind, h.prior]

/-- `none` in both runs, or related configurations. -/
def SameO : Option ECfg → Option ECfg → Prop
  | none, none => True
  | some c, some c' => Same c c'
  | _, _ => False

theorem step_same {c c' : ECfg} (h : Same c c') : SameO (M.step buf c) (M.step buf c') := by
  obtain ⟨m, q, st, p, ts, te, acc, y, bd⟩ := c'
  obtain ⟨rfl, rfl, rfl, rfl, rfl, rfl, rfl, rfl, hx⟩ := h
  have h : Same c ⟨c.m, c.q, c.stack, c.p, c.ts, c.te, c.acc, y, c.bad⟩ := ⟨rfl, rfl, rfl, rfl, rfl, rfl, rfl, rfl, hx⟩
  have ht : ∀ ts, Same { c with ts := ts } ⟨c.m, c.q, c.stack, c.p, ts, c.te, c.acc, y, c.bad⟩ := fun ts => ⟨rfl, rfl, rfl, rfl, rfl, rfl, rfl, rfl, hx⟩
  unfold Multi.step
  dsimp only
  rw [condAt_same hx.d]
  split
  · trivial
  · split
    · split
      · trivial
      · unfold Multi.fallback
        dsimp only
        split
        · exact finish_same h _ (acts_same (s := { x := c.x, np := c.p + 1, te := c.te }) (t := { x := y, np := c.p + 1, te := c.te }) _ _ ⟨hx, rfl, rfl, rfl⟩).x _ _
        · split
          · exact finish_same h _ h.x _ _
          · trivial
    · rename_i q' as _
      generalize (if ((M.mach c.m).scanner && c.q.isEmpty) = true then c.p else c.ts) = ts
      generalize (if (M.mach c.m).scanner = true then (M.mach c.m).nfa.accepts q' else none) = k?
      generalize ((M.mach c.m).scanner && (M.mach c.m).nfa.isLast q') = last
      generalize (if (k?.isSome && !last) = true then c.p + 1 else c.te) = te
      have h1 : SSame (M.acts buf ts { x := c.x, np := c.p + 1, te := te } as) (M.acts buf ts { x := y, np := c.p + 1, te := te } as) :=
        acts_same _ _ ⟨h.x, rfl, rfl, rfl⟩
      rw [h1.jump]
      split
      · exact goOn_same (ht ts) h1 (if last = true then [] else q') none
      · split
        · rw [h1.np]
          exact finish_same h _ h1.x _ _
        · exact goOn_same (ht ts) h1 q' (if k?.isSome = true then k? else if c.q.isEmpty = true then none else c.acc)

theorem run_same : ∀ (n : Nat) {c c' : ECfg}, Same c c' → Same (M.run buf n c) (M.run buf n c')
  | 0, _, _, h => h
  | n + 1, c, c', h => by
    have h1 := step_same (M := M) (buf := buf) h
    show Same (match M.step buf c with | none => c | some c' => M.run buf n c') (match M.step buf c' with | none => c' | some c' => M.run buf n c')
    cases h2 : M.step buf c with
    | none =>
      cases h3 : M.step buf c' with
      | none => exact h
      | some d => rw [h2, h3] at h1; exact h1.elim
    | some d =>
      cases h3 : M.step buf c' with
      | none => rw [h2, h3] at h1; exact h1.elim
      | some d' => rw [h2, h3] at h1; exact run_same n h1

end

theorem einit_same (m : Nat) (l l' : ELeft) : Same (einit m l) (einit m l') :=
  ⟨rfl, rfl, rfl, rfl, rfl, rfl, rfl, rfl, ⟨rfl, rfl, rfl, rfl, (fun h => nomatch h), rfl, rfl, rfl, rfl, rfl, rfl⟩, fun _ => rfl, rfl, (fun h => nomatch h), rfl, rfl⟩

theorem Rep.sh_zero (l : List Rep) : l.map (Rep.sh 0) = l := by
  conv => rhs; rw [← List.map_id l]
  apply List.map_congr_left
  intro r _
  rfl

theorem processLastLine_ent (d : Data) (n : Nat) : (d.processLastLine n).ent = d.ent := by
  unfold Data.processLastLine
  split
  · split <;> exact emit_entity ..
  · rfl

/-- The line callbacks do not depend on the variables that are not initialised. -/
theorem reports_same (P : EParser) (l l' : ELeft) (buf : List Byte) : P.reports l' buf = P.reports l buf := by
  have h := (run_same (M := P.multi) (buf := buf) (efuel buf.length) (einit_same P.line l l')).x
  have h1 := h.upd 0 (h.d.processLastLine buf.length) (Ext.processLastLine _ _) (fun _ => by
    rw [processLastLine_ent, processLastLine_ent]; exact h.ent rfl)
  unfold EParser.reports EParser.final eexec
  dsimp only
  have ho := h1.d.out
  have hl := h1.langs
  rw [Rep.sh_zero] at ho
  simp only [List.nil_append] at ho hl
  rw [Nat.add_zero] at ho hl
  rw [ho, hl]

/-- Nor do the entity callbacks. -/
theorem entityReports_same (P : EParser) (l l' : ELeft) (buf : List Byte) : P.entityReports l' buf = P.entityReports l buf := by
  have h := (run_same (M := P.multi) (buf := buf) (efuel buf.length) (einit_same P.entity l l')).x
  unfold EParser.entityReports eexec
  dsimp only
  rw [h.d.ents, h.elangs]
  simp

/-- Nor does it make a difference to callbacks from a NULL pointer. -/
theorem ub_same (P : EParser) (l l' : ELeft) (buf : List Byte) : (P.final P.multi l' buf).d.ub = (P.final P.multi l buf).d.ub := by
  have h := run_same (M := P.multi) (buf := buf) (efuel buf.length) (einit_same P.line l l')
  have g := (VRel.processLastLine h.x.d buf.length).ub
  rw [Nat.add_zero, Bool.false_or] at g
  exact g

/-! ### Complete lines -/

/-- The parser is between two lines of the page, at position `n`. -/
def ECfg.rest (m n : Nat) (c : ECfg) : Bool :=
  c.m == m && c.q.isEmpty && c.stack.isEmpty && c.p == n && c.te == n && c.acc.isNone && !c.bad &&
  c.x.d.ls.isNone && !c.x.d.lcc && !c.x.d.wlc && !c.x.d.inq && c.x.d.nest == 0 && c.x.d.ind == 0 && c.x.d.prior == 0 && c.x.seen.isNone

def Multi.restsAt (M : Multi) (m : Nat) (buf : List Byte) : Nat → ECfg → Bool
  | 0, c => c.rest m buf.length
  | n + 1, c => c.rest m buf.length || (tameStep M buf c && match M.step buf c with | none => false | some c' => restsAt M m buf n c')

/-- The text consists of complete lines of the page: it ends with a line feed, the parser comes to its end between two lines of its
own language, with nothing pending, and nothing on the way depended on what follows the text. -/
def EParser.whole (P : EParser) (T : List Byte) : Bool :=
  T.getLast? == some 10 && P.multi.restsAt P.line T (efuel T.length) (einit P.line {})

/-- The callback, `k` bytes further on. -/
def ERep.sh (k : Nat) (r : ERep) : ERep := ⟨r.lang, r.kind, r.s + k, r.e + k⟩

/-- The machines of the parser that start with `m` pass the check of EmbedShift.lean, and look one byte ahead only at carriage returns. -/
def Shiftable (P : EParser) (m : Nat) : Prop :=
  ∃ use, m ∈ use ∧ (∀ i ∈ use, Nonempty (EntCert use (P.multi.mach i))) ∧ ∀ i ∈ use, crOnly (P.multi.mach i).nfa = true

theorem Shiftable.of {P : EParser} {m : Nat} {M : Multi} {use : List Nat} (hM : P.multi = M)
    (h : ∀ i ∈ use, Nonempty (EntCert use (M.mach i))) (hm : m ∈ use) (hc : ∀ i ∈ use, crOnly (M.mach i).nfa = true) : Shiftable P m := by
  subst hM; exact ⟨use, hm, h, hc⟩

theorem restsAt_spec {M : Multi} {m : Nat} {buf : List Byte} : ∀ {n : Nat} {c : ECfg}, M.restsAt m buf n c = true →
    ∃ k ≤ n, tameRun M buf k c = true ∧ (M.run buf k c).rest m buf.length = true
  | 0, c, h => ⟨0, Nat.le_refl _, rfl, h⟩
  | n + 1, c, h => by
    unfold Multi.restsAt at h
    rw [Bool.or_eq_true, Bool.and_eq_true] at h
    rcases h with h | ⟨h1, h2⟩
    · exact ⟨0, Nat.zero_le _, rfl, h⟩
    · cases hs : M.step buf c with
      | none => rw [hs] at h2; cases h2
      | some c' =>
        rw [hs] at h2
        obtain ⟨k, k1, k2, k3⟩ := restsAt_spec h2
        refine ⟨k + 1, by omega, ?_, ?_⟩
        · unfold tameRun; rw [h1, hs]; exact k2
        · show (match M.step buf c with | none => c | some c' => M.run buf k c').rest m buf.length = true
          rw [hs]; exact k3

theorem pairUp_append : ∀ {a b : List Nat} {c d : List Rep}, a.length = c.length → pairUp (a ++ b) (c ++ d) = pairUp a c ++ pairUp b d
  | [], _, [], _, _ => rfl
  | [], _, _ :: _, _, h => by simp at h
  | _ :: _, _, [], _, h => by simp at h
  | x :: a, b, y :: c, d, h => by
    simp only [List.cons_append, pairUp]
    rw [pairUp_append (by simpa using h)]

theorem pairUp_sh (k : Nat) : ∀ (a : List Nat) (c : List Rep), pairUp a (c.map (Rep.sh k)) = (pairUp a c).map (ERep.sh k)
  | [], _ => by simp [pairUp]
  | _ :: _, [] => by simp [pairUp]
  | x :: a, y :: c => by
    simp only [List.map_cons, pairUp]
    rw [pairUp_sh k a c]
    rfl

theorem fresh_of_last {T : List Byte} (h : T.getLast? = some 10) : ∃ A, T = A ++ [10] := by
  rw [List.getLast?_eq_some_iff] at h
  exact h

/-- **Complete lines.** -/
theorem reports_append {P : EParser} (hS : Shiftable P P.line)
    (hC : Checked P P.line false false) {T : List Byte} (hT : P.whole T = true) (l l' : ELeft) (X : List Byte) :
    P.reports l (T ++ X) = P.reports l T ++ (P.reports l' X).map (ERep.sh T.length) := by
  rw [reports_same P {} l, reports_same P {} l, reports_same P {} l']
  unfold EParser.whole at hT
  rw [Bool.and_eq_true, beq_iff_eq] at hT
  obtain ⟨hT1, hT2⟩ := hT
  obtain ⟨A, hA⟩ := fresh_of_last hT1
  obtain ⟨k, _, hk1, hk2⟩ := restsAt_spec hT2
  obtain ⟨use, hm, hE, hcr⟩ := hS
  have C : EntCerts P.multi use := fun i hi => Classical.choice (hE i hi)
  have hmv : Moved (einit P.line {}) := ⟨fun h => absurd rfl h, (fun h => nomatch h)⟩
  have h0 : PRel C 0 {} false (einit P.line {}) (einit P.line {}) :=
    ⟨rfl, rfl, rfl, rfl, .inl rfl, rfl, rfl, rfl, ((einit_same P.line {} {}).x).weaken (fun h => nomatch h), .inr (EIn.init C hm), fun y hy => by cases hy⟩
  obtain ⟨es1, h1⟩ := run_prefix C (T := []) (A := A) (R := X) (.inl rfl) hcr k h0 hmv (by rw [← hA]; exact hk1)
  rw [List.nil_append, ← hA] at h1
  -- the configuration after the text
  generalize hc : P.multi.run T k (einit P.line {}) = c at hk2 h1
  generalize hc' : P.multi.run (T ++ X) k (einit P.line {}) = c' at h1
  unfold ECfg.rest at hk2
  simp only [Bool.and_eq_true, beq_iff_eq, List.isEmpty_iff, Option.isNone_iff_eq_none, Bool.not_eq_true'] at hk2
  obtain ⟨⟨⟨⟨⟨⟨⟨⟨⟨⟨⟨⟨⟨⟨r1, r2⟩, r3⟩, r4⟩, r5⟩, r6⟩, r7⟩, r8⟩, r9⟩, r10⟩, r11⟩, r12⟩, r13⟩, r14⟩, r15⟩ := hk2
  -- it is where the run on the text alone ends
  have hend : P.multi.step T c = none := by
    unfold Multi.step
    rw [r7, r4, r2]
    simp
  have hex : eexec P.multi P.line {} T = c := by
    obtain ⟨o, _, _, hh, _⟩ := hC.run {} T (fun h => nomatch h)
    unfold eexec at hh ⊢
    rw [← hc]
    exact Multi.run_unique hh (by rw [hc]; exact hend)
  -- from there on
  have h2 : PRel C T.length c'.x false (einit P.line {}) c' := by
    refine ⟨h1.m.trans r1, h1.q.trans r2, h1.stack.trans r3, ?_, .inr ⟨rfl, ?_⟩, ?_, h1.acc.trans r6, h1.bad.trans r7, ?_, .inr (EIn.init C hm), fun y hy => by cases hy⟩
    · rw [h1.p, r4]; simp [einit]
    · obtain ⟨o, _, _, _, _, g, _⟩ := hC; exact g
    · rw [h1.te, r5]; simp [einit]
    · have g := h1.x
      refine ⟨⟨?_, ?_, ?_, ?_, (fun h => nomatch h), ?_, ?_, ?_, ?_, ?_, ?_⟩, (fun h => nomatch h), ?_, (fun h => nomatch h), ?_, ?_⟩
      · rw [g.d.ls, r8]; rfl
      · rw [g.d.lcc, r9]; rfl
      · rw [g.d.wlc, r10]; rfl
      · rw [g.d.inq, r11]; rfl
      · rw [g.d.nest, r12]; rfl
      · rw [g.d.ind, r13]; rfl
      · rw [g.d.prior, r14]; rfl
      · simp [einit]
      · simp [einit]
      · simp [einit]
      · simp [einit]
      · simp [einit]
      · rw [g.seen, r15]; rfl
  have hfr : Fresh T := .inr ⟨A, 10, hA, .inl rfl⟩
  obtain ⟨⟨es3, h3⟩, h4⟩ := run_shift C hfr X (efuel X.length) h2 hmv
  have hX : P.multi.step X (eexec P.multi P.line {} X) = none := by
    obtain ⟨o, _, _, hh, _⟩ := hC.run {} X (fun h => nomatch h); exact hh
  have h5 := h4 hX
  have hexX : eexec P.multi P.line {} (T ++ X) = P.multi.run (T ++ X) (efuel X.length) c' := by
    obtain ⟨o, _, _, hh, _⟩ := hC.run {} (T ++ X) (fun h => nomatch h)
    unfold eexec at hh ⊢
    rw [← hc', ← Multi.run_add] at h5 ⊢
    exact Multi.run_unique hh h5
  -- the callbacks
  obtain ⟨o, e1, _, _, _, e5⟩ := hC.run {} T (fun h => nomatch h)
  have hlen := e5.l.out.1
  rw [hex] at hlen
  have e6 : P.reports {} T = pairUp c.x.langs c.x.d.out := by
    unfold EParser.reports EParser.final
    rw [hex]
    have : c.x.d.processLastLine T.length = c.x.d := by unfold Data.processLastLine; rw [r9, r10]; rfl
    dsimp only
    rw [this]
    unfold EData.upd
    simp
  rw [e6]
  have h6 := (h3.x.weaken (es' := false) (fun g => nomatch g)).upd 0 (h3.x.d.processLastLine X.length) (Ext.processLastLine _ _) (fun g => nomatch g)
  have h7 : c'.x.d.out = c.x.d.out := by
    have : c'.x.d.out = [] ++ c.x.d.out.map (Rep.sh 0) := h1.x.d.out
    rwa [Rep.sh_zero] at this
  have h8 : c'.x.langs = c.x.langs := by simpa using h1.x.langs
  have h9 := h6.d.out
  have h10 := h6.langs
  rw [h7] at h9
  rw [h8] at h10
  unfold EParser.reports EParser.final
  rw [hexX, List.length_append, Nat.add_comm T.length]
  dsimp only
  rw [h9, h10, pairUp_append hlen, pairUp_sh]
  rfl

end Ohcount.Ragel
