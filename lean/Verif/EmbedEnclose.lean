import Verif.EmbedRegion

/-!
A region of a page in another language, with the lines that open and close it: the lines inside are reported as the parser of that language
reports them when it is given the text of the region alone.
-/

namespace Ohcount.Ragel

/-! ### Pieces of a page -/

/-- The parser comes, whatever follows, to the end of `T` between two lines of the page, having reported `rs`; `u`: a callback
was computed from a NULL pointer. -/
def Lines (P : EParser) (T : List Byte) (rs : List ERep) (u : Bool) : Prop :=
  (T = [] ∨ T.getLast? = some 10) ∧ ∀ R, ∃ n, (P.multi.run (T ++ R) n (einit P.line {})).rest P.line T.length = true ∧
    (P.multi.run (T ++ R) n (einit P.line {})).x.langs.length = (P.multi.run (T ++ R) n (einit P.line {})).x.d.out.length ∧
    pairUp (P.multi.run (T ++ R) n (einit P.line {})).x.langs (P.multi.run (T ++ R) n (einit P.line {})).x.d.out = rs ∧
    (P.multi.run (T ++ R) n (einit P.line {})).x.d.ub = u

theorem fresh_lines {T : List Byte} (h : T = [] ∨ T.getLast? = some 10) : Fresh T := by
  rcases h with h | h
  · exact .inl h
  · obtain ⟨A, hA⟩ := fresh_of_last h
    exact .inr ⟨A, 10, hA, .inl rfl⟩

/-- The fields of `ECfg.rest`. -/
structure Idle (m : Nat) (st : List (Nat × State)) (n : Nat) (c : ECfg) : Prop where
  m : c.m = m
  q : c.q = []
  stack : c.stack = st
  p : c.p = n
  te : c.te = n
  acc : c.acc = none
  bad : c.bad = false
  ls : c.x.d.ls = none
  lcc : c.x.d.lcc = false
  wlc : c.x.d.wlc = false
  inq : c.x.d.inq = false
  nest : c.x.d.nest = 0
  ind : c.x.d.ind = 0
  prior : c.x.d.prior = 0

/-- As a program. -/
def ECfg.idle (m : Nat) (st : List (Nat × State)) (n : Nat) (c : ECfg) : Bool :=
  c.m == m && c.q.isEmpty && c.stack == st && c.p == n && c.te == n && c.acc.isNone && !c.bad &&
  c.x.d.ls.isNone && !c.x.d.lcc && !c.x.d.wlc && !c.x.d.inq && c.x.d.nest == 0 && c.x.d.ind == 0 && c.x.d.prior == 0

theorem Idle.of {m n : Nat} {st : List (Nat × State)} {c : ECfg} (h : c.idle m st n = true) : Idle m st n c := by
  unfold ECfg.idle at h
  simp only [Bool.and_eq_true, beq_iff_eq, List.isEmpty_iff, Option.isNone_iff_eq_none, Bool.not_eq_true'] at h
  obtain ⟨⟨⟨⟨⟨⟨⟨⟨⟨⟨⟨⟨⟨r1, r2⟩, r3⟩, r4⟩, r5⟩, r6⟩, r7⟩, r8⟩, r9⟩, r10⟩, r11⟩, r12⟩, r13⟩, r14⟩ := h
  exact ⟨r1, r2, r3, r4, r5, r6, r7, r8, r9, r10, r11, r12, r13, r14⟩

theorem rest_iff {m n : Nat} {c : ECfg} : c.rest m n = true ↔ Idle m [] n c ∧ c.x.seen = none := by
  unfold ECfg.rest
  simp only [Bool.and_eq_true, beq_iff_eq, List.isEmpty_iff, Option.isNone_iff_eq_none, Bool.not_eq_true']
  constructor
  · rintro ⟨⟨⟨⟨⟨⟨⟨⟨⟨⟨⟨⟨⟨⟨r1, r2⟩, r3⟩, r4⟩, r5⟩, r6⟩, r7⟩, r8⟩, r9⟩, r10⟩, r11⟩, r12⟩, r13⟩, r14⟩, r15⟩
    exact ⟨⟨r1, r2, r3, r4, r5, r6, r7, r8, r9, r10, r11, r12, r13, r14⟩, r15⟩
  · rintro ⟨⟨r1, r2, r3, r4, r5, r6, r7, r8, r9, r10, r11, r12, r13, r14⟩, r15⟩
    exact ⟨⟨⟨⟨⟨⟨⟨⟨⟨⟨⟨⟨⟨⟨r1, r2⟩, r3⟩, r4⟩, r5⟩, r6⟩, r7⟩, r8⟩, r9⟩, r10⟩, r11⟩, r12⟩, r13⟩, r14⟩, r15⟩

section
variable {P : EParser} {use : List Nat} (C : EntCerts P.multi use)

/-- From such a configuration the parser goes on as if the text began there. -/
theorem PRel.start {m n : Nat} {st : List (Nat × State)} {c : ECfg} (h : Idle m st n c) (hm : m ∈ use) (hsc : (P.multi.mach m).scanner = true)
    (hst : ∀ y ∈ st, EIn C y.1 y.2 false) :
    PRel C n c.x false { m := m, stack := st, x := { seen := c.x.seen } } c := by
  refine ⟨h.m, h.q, h.stack, h.p.trans (by simp), .inr ⟨rfl, hsc⟩, h.te.trans (by simp), h.acc, h.bad, ?_, .inr (EIn.init C hm), hst⟩
  refine ⟨⟨?_, ?_, ?_, ?_, (fun h => nomatch h), ?_, ?_, ?_, ?_, ?_, ?_⟩, (fun h => nomatch h), ?_, (fun h => nomatch h), ?_, ?_⟩
  · rw [h.ls]; rfl
  · rw [h.lcc]
  · rw [h.wlc]
  · rw [h.inq]
  · rw [h.nest]
  · rw [h.ind]
  · rw [h.prior]
  · simp
  · simp
  · simp
  · simp
  · simp
  · rfl

/-- The configuration after a run from there. -/
theorem PRel.idle {k : Nat} {b : EData} {es : Bool} {m n : Nat} {st : List (Nat × State)} {c c' : ECfg} (h : PRel C k b es c c') (g : Idle m st n c) :
    Idle m st (n + k) c' :=
  ⟨h.m.trans g.m, h.q.trans g.q, h.stack.trans g.stack, by rw [h.p, g.p], by rw [h.te, g.te], h.acc.trans g.acc, h.bad.trans g.bad,
    by rw [h.x.d.ls, g.ls]; rfl, h.x.d.lcc.trans g.lcc, h.x.d.wlc.trans g.wlc, h.x.d.inq.trans g.inq, h.x.d.nest.trans g.nest,
    h.x.d.ind.trans g.ind, h.x.d.prior.trans g.prior⟩

end

theorem moved_start (m : Nat) (st : List (Nat × State)) (x : EData) : Moved { m := m, stack := st, x := x } :=
  ⟨fun h => absurd rfl h, (fun h => nomatch h)⟩

/-- What is reported for a page that begins with such a piece. -/
theorem Lines.reports {P : EParser} (hS : Shiftable P P.line) (hC : Checked P P.line false false) {T : List Byte} {rs : List ERep} {u : Bool} (h : Lines P T rs u)
    (l l' : ELeft) (X : List Byte) : P.reports l (T ++ X) = rs ++ (P.reports l' X).map (ERep.sh T.length) ∧
      (P.final P.multi l (T ++ X)).d.ub = (u || (P.final P.multi l' X).d.ub) := by
  rw [reports_same P {} l, reports_same P {} l', ub_same P {} l, ub_same P {} l']
  obtain ⟨hT, h⟩ := h
  obtain ⟨n, h1, h2, h3, hu⟩ := h X
  generalize hc' : P.multi.run (T ++ X) n (einit P.line {}) = c' at h1 h2 h3 hu
  obtain ⟨hi, hs⟩ := rest_iff.mp h1
  obtain ⟨use, hm, hE, hcr⟩ := hS
  have C : EntCerts P.multi use := fun i hi => Classical.choice (hE i hi)
  have hsc : (P.multi.mach P.line).scanner = true := by obtain ⟨o, _, _, _, _, g, _⟩ := hC; exact g
  have h4 := PRel.start C hi hm hsc (fun y hy => by cases hy)
  rw [hs] at h4
  obtain ⟨⟨es3, h5⟩, h6⟩ := run_shift C (fresh_lines hT) X (efuel X.length) h4 (moved_start ..)
  have h5 : PRel C T.length c'.x es3 (eexec P.multi P.line {} X) (P.multi.run (T ++ X) (efuel X.length) c') := h5
  have hX : P.multi.step X (eexec P.multi P.line {} X) = none := by
    obtain ⟨o, _, _, hh, _⟩ := hC.run {} X (fun h => nomatch h); exact hh
  have h6 := h6 hX
  have hexX : eexec P.multi P.line {} (T ++ X) = P.multi.run (T ++ X) (efuel X.length) c' := by
    obtain ⟨o, _, _, hh, _⟩ := hC.run {} (T ++ X) (fun h => nomatch h)
    unfold eexec at hh ⊢
    rw [← hc', ← Multi.run_add] at h6 ⊢
    exact Multi.run_unique hh h6
  have h7 := (h5.x.weaken (es' := false) (fun g => nomatch g)).upd 0 (h5.x.d.processLastLine X.length) (Ext.processLastLine _ _) (fun g => nomatch g)
  have h8 := h7.d.out
  have h9 := h7.langs
  have h10 := h7.d.ub
  unfold EParser.reports EParser.final
  rw [hexX, List.length_append, Nat.add_comm T.length]
  dsimp only
  refine ⟨by rw [h8, h9, pairUp_append h2, pairUp_sh, h3], ?_⟩
  rw [← hu]
  exact h10

/-- One piece after another. -/
theorem Lines.append {P : EParser} (hS : Shiftable P P.line) (hC : Checked P P.line false false) {T U : List Byte} {rs rs' : List ERep} {u u' : Bool}
    (h : Lines P T rs u) (h' : Lines P U rs' u') : Lines P (T ++ U) (rs ++ rs'.map (ERep.sh T.length)) (u || u') := by
  refine ⟨?_, fun R => ?_⟩
  · rcases h'.1 with g | g
    · subst g; rw [List.append_nil]; exact h.1
    · right
      obtain ⟨A, hA⟩ := fresh_of_last g
      rw [hA, ← List.append_assoc]
      simp
  · obtain ⟨n, h1, h2, h3, hu⟩ := h.2 (U ++ R)
    obtain ⟨n', h1', h2', h3', hu'⟩ := h'.2 R
    rw [← List.append_assoc] at h1 h2 h3 hu
    generalize hc' : P.multi.run (T ++ U ++ R) n (einit P.line {}) = c' at h1 h2 h3 hu
    obtain ⟨hi, hs⟩ := rest_iff.mp h1
    obtain ⟨use, hm, hE, hcr⟩ := hS
    have C : EntCerts P.multi use := fun i hi => Classical.choice (hE i hi)
    have hsc : (P.multi.mach P.line).scanner = true := by obtain ⟨o, _, _, _, _, g, _⟩ := hC; exact g
    have h4 := PRel.start C hi hm hsc (fun y hy => by cases hy)
    rw [hs] at h4
    obtain ⟨⟨es3, h5⟩, _⟩ := run_shift C (fresh_lines h.1) (U ++ R) n' h4 (moved_start ..)
    rw [← List.append_assoc] at h5
    have h5 : PRel C T.length c'.x es3 (P.multi.run (U ++ R) n' (einit P.line {})) (P.multi.run (T ++ U ++ R) n' c') := h5
    refine ⟨n + n', ?_⟩
    rw [Multi.run_add, hc']
    obtain ⟨hi', hs'⟩ := rest_iff.mp h1'
    refine ⟨rest_iff.mpr ⟨?_, h5.x.seen.trans hs'⟩, ?_, ?_, by rw [h5.x.d.ub, hu, hu']⟩
    · have := PRel.idle C h5 hi'
      rwa [List.length_append, Nat.add_comm]
    · rw [h5.x.langs, h5.x.d.out, List.length_append, List.length_append, List.length_map, h2, h2']
    · rw [h5.x.langs, h5.x.d.out, pairUp_append h2, pairUp_sh, h3, h3']

/-- Text that is complete by the check of EmbedWhole.lean. -/
theorem Lines.of_whole {P : EParser} (hS : Shiftable P P.line) (hC : Checked P P.line false false) {T : List Byte} (hT : P.whole T = true) (l : ELeft) :
    Lines P T (P.reports l T) (P.final P.multi l T).d.ub := by
  rw [reports_same P {} l, ub_same P {} l]
  unfold EParser.whole at hT
  rw [Bool.and_eq_true, beq_iff_eq] at hT
  obtain ⟨hT1, hT2⟩ := hT
  refine ⟨.inr hT1, fun R => ?_⟩
  obtain ⟨A, hA⟩ := fresh_of_last hT1
  obtain ⟨k, _, hk1, hk2⟩ := restsAt_spec hT2
  obtain ⟨use, hm, hE, hcr⟩ := hS
  have C : EntCerts P.multi use := fun i hi => Classical.choice (hE i hi)
  have h0 : PRel C 0 {} false (einit P.line {}) (einit P.line {}) :=
    ⟨rfl, rfl, rfl, rfl, .inl rfl, rfl, rfl, rfl, ((einit_same P.line {} {}).x).weaken (fun h => nomatch h), .inr (EIn.init C hm), fun y hy => by cases hy⟩
  obtain ⟨es1, h1⟩ := run_prefix C (T := []) (A := A) (R := R) (.inl rfl) hcr k h0 (moved_start ..) (by rw [← hA]; exact hk1)
  rw [List.nil_append, ← hA] at h1
  refine ⟨k, ?_⟩
  generalize hc : P.multi.run T k (einit P.line {}) = c at hk2 h1
  generalize P.multi.run (T ++ R) k (einit P.line {}) = c' at h1
  obtain ⟨hi, hs⟩ := rest_iff.mp hk2
  have hend : P.multi.step T c = none := by
    unfold Multi.step
    rw [hi.bad, hi.p, hi.q]
    simp
  have hex : eexec P.multi P.line {} T = c := by
    obtain ⟨o, _, _, hh, _⟩ := hC.run {} T (fun h => nomatch h)
    unfold eexec at hh ⊢
    rw [← hc]
    exact Multi.run_unique hh (by rw [hc]; exact hend)
  obtain ⟨o, e1, _, _, _, e5⟩ := hC.run {} T (fun h => nomatch h)
  have hlen := e5.l.out.1
  rw [hex] at hlen
  have h7 : c'.x.d.out = c.x.d.out := by
    have : c'.x.d.out = [] ++ c.x.d.out.map (Rep.sh 0) := h1.x.d.out
    rwa [Rep.sh_zero] at this
  have h8 : c'.x.langs = c.x.langs := by simpa using h1.x.langs
  refine ⟨rest_iff.mpr ⟨PRel.idle C h1 hi, h1.x.seen.trans hs⟩, by rw [h7, h8]; exact hlen, ?_⟩
  have h9 : c'.x.d.ub = c.x.d.ub := by simpa using h1.x.d.ub
  rw [h7, h8, h9]
  unfold EParser.reports EParser.final
  rw [hex]
  have : c.x.d.processLastLine T.length = c.x.d := by unfold Data.processLastLine; rw [hi.lcc, hi.wlc]; rfl
  dsimp only
  rw [this]
  unfold EData.upd
  simp

/-! ### The text of the region -/

/-- The parser of a language is at the end of the text, between two lines. -/
def Cfg.calm (n : Nat) (c : Cfg) : Bool :=
  c.q.isEmpty && c.p == n && c.d.ls.isNone && !c.d.lcc && !c.d.wlc && !c.d.inq && c.d.nest == 0 && c.d.ind == 0 && c.d.prior == 0

def Machine.calmAt (S : Machine) (W : List Byte) : Nat → Cfg → Bool
  | 0, c => c.calm W.length
  | n + 1, c => c.calm W.length || (decide (c.p < W.length) && match S.step W c with | none => false | some c' => calmAt S W n c')

/-- The text consists of complete lines of the language: it ends with a line feed, and the parser comes to its end between two lines, with
nothing pending. -/
def Machine.settled (S : Machine) (W : List Byte) : Bool :=
  W.isEmpty || (W.getLast? == some 10 && S.calmAt W (fuel W.length) (initCfg {}))

theorem Machine.run_halt {S : Machine} {W : List Byte} {c : Cfg} (h : S.step W c = none) : ∀ n, S.run W n c = c
  | 0 => rfl
  | n + 1 => by unfold Machine.run; rw [h]

theorem Machine.run_plus {S : Machine} {W : List Byte} : ∀ (n k : Nat) (c : Cfg), S.run W (n + k) c = S.run W k (S.run W n c)
  | 0, k, c => by rw [Nat.zero_add]; rfl
  | n + 1, k, c => by
    rw [show n + 1 + k = (n + k) + 1 by omega]
    show (match S.step W c with | none => c | some c' => S.run W (n + k) c') =
      S.run W k (match S.step W c with | none => c | some c' => S.run W n c')
    cases h : S.step W c with
    | none => rw [Machine.run_halt h]
    | some c' => exact Machine.run_plus n k c'

section
variable {S : Machine} {M : Multi} {e l : Nat} {X : Exits} (C : RegCert S M e l X)
variable {A W R : List Byte} {st : List (Nat × State)} {b : EData}

include C in
theorem calm_reg (hA : Fresh A) (hW : W.getLast? = some 10) (hno : X.Free W) : ∀ (n : Nat) {c : Cfg} {c' : ECfg},
    S.calmAt W n c = true → RReg C A W st b c c' →
    ∃ k ≤ n, (S.run W k c).calm W.length = true ∧ ∃ j, RReg C A W st b (S.run W k c) (M.run (A ++ (W ++ R)) j c')
  | 0, c, c', h, hr => ⟨0, Nat.le_refl _, h, 0, hr⟩
  | n + 1, c, c', h, hr => by
    unfold Machine.calmAt at h
    rw [Bool.or_eq_true, Bool.and_eq_true, decide_eq_true_eq] at h
    rcases h with h | ⟨h1, h2⟩
    · exact ⟨0, Nat.zero_le _, h, 0, hr⟩
    · cases hs : S.step W c with
      | none => rw [hs] at h2; cases h2
      | some c1 =>
        rw [hs] at h2
        have hlt : ∀ y ∈ X.pairs, y.1 < 256 := by
          intro y hy
          have := List.all_eq_true.mp C.ne y hy
          rw [Bool.and_eq_true, decide_eq_true_eq] at this
          exact this.2
        obtain ⟨j, hj⟩ := step_reg C (R := R) hA hW hno hlt hr h1 hs
        obtain ⟨k, k1, k2, j', k3⟩ := calm_reg hA hW hno n h2 hj
        refine ⟨k + 1, by omega, ?_, j + j', ?_⟩
        · show (match S.step W c with | none => c | some c' => S.run W k c').calm W.length = true
          rw [hs]; exact k2
        · rw [Multi.run_add]
          show RReg C A W st b (match S.step W c with | none => c | some c' => S.run W k c') _
          rw [hs]; exact k3

include C in
/-- The parser of the page passes the text of the region. -/
theorem region_run (hA : Fresh A) (hW : S.settled W = true) (hno : X.Free W) {c : ECfg} (hc : Idle e st A.length c)
    (hs : c.x.seen = none ∨ c.x.seen = some l) : ∃ j c', M.run (A ++ (W ++ R)) j c = c' ∧ Idle e st (W.length + A.length) c' ∧
      (c'.x.seen = none ∨ c'.x.seen = some l) ∧
      c'.x.d.out = c.x.d.out ++ (lineReports S {} W).map (Rep.sh A.length) ∧
      c'.x.langs = c.x.langs ++ List.replicate (lineReports S {} W).length l ∧
      c'.x.d.ub = (c.x.d.ub || ((exec S {} W).d.processLastLine W.length).ub) := by
  unfold Machine.settled at hW
  rw [Bool.or_eq_true, List.isEmpty_iff] at hW
  rcases hW with hW | hW
  · subst hW
    refine ⟨0, c, rfl, by simpa using hc, hs, ?_, ?_, ?_⟩
    · have : lineReports S {} [] = [] := by
        unfold lineReports exec
        rw [Machine.run_halt (by unfold Machine.step initCfg; rfl)]
        rfl
      rw [this]; simp
    · have : lineReports S {} [] = [] := by
        unfold lineReports exec
        rw [Machine.run_halt (by unfold Machine.step initCfg; rfl)]
        rfl
      rw [this]; simp
    · have : ((exec S {} []).d.processLastLine 0).ub = false := by
        unfold exec
        rw [Machine.run_halt (by unfold Machine.step initCfg; rfl)]
        rfl
      rw [List.length_nil, this, Bool.or_false]
  · rw [Bool.and_eq_true, beq_iff_eq] at hW
    obtain ⟨hW1, hW2⟩ := hW
    have h0 : RReg C A W st c.x (initCfg {}) c := by
      refine ⟨hc.m, hc.stack, hc.bad, by rw [hc.p]; simp [initCfg], .inr rfl, (fun g => nomatch g), fun _ => by rw [hc.te, hc.p], ?_, fun _ => rfl,
        fun g => absurd rfl g, ⟨_, tab_start C, rfl, hc.q.symm, ?_, fun g => absurd rfl g⟩⟩
      · rw [hc.acc]; rfl
      · refine ⟨⟨?_, ?_, ?_, ?_, (fun h => nomatch h), ?_, ?_, ?_, ?_, ?_, ?_⟩, (fun _ g => nomatch g), ?_, (fun h => nomatch h), rfl, hs⟩
        · rw [hc.ls]; rfl
        · rw [hc.lcc]; rfl
        · rw [hc.wlc]; rfl
        · rw [hc.inq]; rfl
        · rw [hc.nest]; rfl
        · rw [hc.ind]; rfl
        · rw [hc.prior]; rfl
        · simp [initCfg]
        · simp [initCfg]
        · simp [initCfg]
        · simp [initCfg]
    obtain ⟨k, k1, k2, j, k3⟩ := calm_reg C (R := R) hA hW1 hno _ hW2 h0
    generalize hc1 : S.run W k (initCfg {}) = c1 at k2 k3
    unfold Cfg.calm at k2
    simp only [Bool.and_eq_true, beq_iff_eq, List.isEmpty_iff, Option.isNone_iff_eq_none, Bool.not_eq_true'] at k2
    obtain ⟨⟨⟨⟨⟨⟨⟨⟨r1, r2⟩, r3⟩, r4⟩, r5⟩, r6⟩, r7⟩, r8⟩, r9⟩ := k2
    have hend : S.step W c1 = none := by
      unfold Machine.step
      rw [r2, r1]
      simp
    have hlast : (exec S {} W).d.processLastLine W.length = c1.d := by
      unfold exec
      have : S.run W (fuel W.length) (initCfg {}) = c1 := by
        rw [show fuel W.length = k + (fuel W.length - k) by omega, Machine.run_plus, hc1, Machine.run_halt hend]
      rw [this]
      unfold Data.processLastLine
      rw [r4, r5]; rfl
    have hrep : lineReports S {} W = c1.d.out := by
      unfold lineReports
      rw [hlast]
    obtain ⟨r, hr, e1, e2, e3, e4⟩ := k3.pair
    refine ⟨j, _, rfl, ?_, e3.seen, by rw [hrep]; exact e3.dr.out, by rw [hrep]; exact e3.langs, by rw [hlast]; exact e3.dr.ub⟩
    have hq : (M.run (A ++ (W ++ R)) j c).q = [] := by
      have := (C.row hr).1
      rw [e1, e2, r1] at this
      exact List.isEmpty_iff.mp this.symm
    have hp : (M.run (A ++ (W ++ R)) j c).p = W.length + A.length := by rw [k3.p, r2]
    refine ⟨k3.m, hq, k3.stack, hp, (k3.te0 r1).trans hp, ?_, k3.bad, ?_, e3.dr.lcc.trans r4, e3.dr.wlc.trans r5, e3.dr.inq.trans r6,
      e3.dr.nest.trans r7, e3.dr.ind.trans r8, e3.dr.prior.trans r9⟩
    · have := k3.acc
      rw [k3.acc0 r1] at this
      revert this
      cases (M.run (A ++ (W ++ R)) j c).acc with
      | none => intro _; rfl
      | some i => intro g; cases g
    · rw [e3.dr.ls, r3]; rfl

end

/-! ### Opening, text, closing -/

/-- The first configuration in which `ok` holds, if everything before it does not depend on what follows the text. -/
def Multi.runTo (M : Multi) (ok : ECfg → Bool) (T : List Byte) : Nat → ECfg → Option ECfg
  | 0, c => if ok c then some c else none
  | n + 1, c => if ok c then some c else if tameStep M T c then match M.step T c with | none => none | some c' => runTo M ok T n c' else none

theorem runTo_spec {M : Multi} {ok : ECfg → Bool} {T : List Byte} : ∀ {n : Nat} {c c' : ECfg}, M.runTo ok T n c = some c' →
    ∃ k, tameRun M T k c = true ∧ M.run T k c = c' ∧ ok c' = true
  | 0, c, c', h => by
    unfold Multi.runTo at h
    split at h
    · rename_i g; cases h; exact ⟨0, rfl, rfl, g⟩
    · cases h
  | n + 1, c, c', h => by
    unfold Multi.runTo at h
    split at h
    · rename_i g; cases h; exact ⟨0, rfl, rfl, g⟩
    · split at h
      · rename_i h1
        cases hs : M.step T c with
        | none => rw [hs] at h; cases h
        | some c1 =>
          rw [hs] at h
          obtain ⟨k, k1, k2, k3⟩ := runTo_spec h
          refine ⟨k + 1, ?_, ?_, k3⟩
          · unfold tameRun; rw [h1, hs]; exact k1
          · show (match M.step T c with | none => c | some c' => M.run T k c') = c'
            rw [hs]; exact k2
      · cases h

/-- The callbacks of a configuration. -/
def ECfg.reps (c : ECfg) : List ERep := pairUp c.x.langs c.x.d.out

/-- Inside of machine `e`, at the end of the opening text. -/
def ECfg.inside (e l n : Nat) (c : ECfg) : Bool :=
  c.idle e c.stack n && (c.x.seen == none || c.x.seen == some l) && c.x.langs.length == c.x.d.out.length && !c.x.d.ub

/-- Back in the page, at the end of the closing text. -/
def ECfg.backIn (m n : Nat) (c : ECfg) : Bool := c.rest m n && c.x.langs.length == c.x.d.out.length && !c.x.d.ub

/-- `A` opens a region that machine `e` reads in language `l`, `Z` closes it: the callbacks for the two. -/
def EParser.enclose (P : EParser) (e l : Nat) (A Z : List Byte) : Option (List ERep × List ERep) :=
  if A.getLast? == some 10 && Z.getLast? == some 10 then
    match P.multi.runTo (fun c => c.inside e l A.length) A (efuel A.length) (einit P.line {}) with
    | none => none
    | some c =>
      match P.multi.runTo (fun c => c.backIn P.line Z.length) Z (efuel Z.length) { m := e, stack := c.stack },
          P.multi.runTo (fun c => c.backIn P.line Z.length) Z (efuel Z.length) { m := e, stack := c.stack, x := { seen := some l } } with
      | some c1, some c2 => if c1.reps = c2.reps then some (c.reps, c1.reps) else none
      | _, _ => none
  else none

theorem pairUp_replicate (l : Nat) : ∀ o : List Rep, pairUp (List.replicate o.length l) o = o.map fun r => ⟨l, r.kind, r.s, r.e⟩
  | [] => rfl
  | r :: o => by
    rw [List.length_cons, List.replicate_succ, List.map_cons, ← pairUp_replicate l o]
    rfl

/-- **A region.**  The lines of the opening text, the lines of the text inside as the parser of its language reports them, the lines of the
closing text. -/
theorem enclose_lines {P : EParser} (hS : Shiftable P P.line) {S : Machine} {e l : Nat} {X : Exits} (C : RegCert S P.multi e l X) {A Z : List Byte}
    {r1 r2 : List ERep} (he : P.enclose e l A Z = some (r1, r2)) {W : List Byte} (hW : S.settled W = true) (hno : X.Free W)
    (hu : ((exec S {} W).d.processLastLine W.length).ub = false) :
    Lines P (A ++ W ++ Z) (r1 ++ ((lineReports S {} W).map fun r => ⟨l, r.kind, r.s + A.length, r.e + A.length⟩) ++
      r2.map (ERep.sh (A.length + W.length))) false := by
  unfold EParser.enclose at he
  split at he
  case isFalse => cases he
  rename_i hAZ
  rw [Bool.and_eq_true, beq_iff_eq, beq_iff_eq] at hAZ
  obtain ⟨hA, hZ⟩ := hAZ
  split at he
  · cases he
  rename_i c hc
  split at he
  case h_2 => cases he
  rename_i c1 c2 hc1 hc2
  split at he
  case isFalse => cases he
  rename_i hreps
  simp only [Option.some.injEq, Prod.mk.injEq] at he
  obtain ⟨rfl, rfl⟩ := he
  obtain ⟨k, o1, o2, o3⟩ := runTo_spec hc
  obtain ⟨A', hA'⟩ := fresh_of_last hA
  obtain ⟨Z', hZ'⟩ := fresh_of_last hZ
  obtain ⟨use, hm, hE, hcr⟩ := hS
  have D : EntCerts P.multi use := fun i hi => Classical.choice (hE i hi)
  refine ⟨.inr (by rw [hZ', ← List.append_assoc]; simp), fun R => ?_⟩
  -- the opening
  have h0 : PRel D 0 {} false (einit P.line {}) (einit P.line {}) :=
    ⟨rfl, rfl, rfl, rfl, .inl rfl, rfl, rfl, rfl, ((einit_same P.line {} {}).x).weaken (fun h => nomatch h), .inr (EIn.init D hm), fun y hy => by cases hy⟩
  obtain ⟨es1, h1⟩ := run_prefix D (T := []) (A := A') (R := W ++ (Z ++ R)) (.inl rfl) hcr k h0 (moved_start ..) (by rw [← hA']; exact o1)
  rw [List.nil_append, ← hA', o2] at h1
  unfold ECfg.inside at o3
  simp only [Bool.and_eq_true, Bool.or_eq_true, beq_iff_eq, Bool.not_eq_true'] at o3
  obtain ⟨⟨⟨i1, i2⟩, i3⟩, i4⟩ := o3
  have i1 := Idle.of i1
  have j1 := PRel.idle D h1 i1
  generalize hc' : P.multi.run (A ++ (W ++ (Z ++ R))) k (einit P.line {}) = c' at h1 j1
  have hout : c'.x.d.out = c.x.d.out := by
    have : c'.x.d.out = [] ++ c.x.d.out.map (Rep.sh 0) := h1.x.d.out
    rwa [Rep.sh_zero] at this
  have hlangs : c'.x.langs = c.x.langs := by simpa using h1.x.langs
  have hub : c'.x.d.ub = false := by simpa [i4] using h1.x.d.ub
  have hfA : Fresh A := .inr ⟨A', 10, hA', .inl rfl⟩
  -- the text
  obtain ⟨j, c3, t1, t2, t3, t4, t5, t6⟩ := region_run C (R := Z ++ R) hfA hW hno (c := c') j1 (by rw [h1.x.seen]; exact i2)
  have heu : e ∈ use := by
    have := h1.tab
    rw [i1.bad, i1.m] at this
    rcases this with g | ⟨g, _⟩
    · cases g
    · exact g
  -- the closing
  have hfW : Fresh (A ++ W) := by
    unfold Machine.settled at hW
    rw [Bool.or_eq_true, List.isEmpty_iff, Bool.and_eq_true, beq_iff_eq] at hW
    rcases hW with g | ⟨g, _⟩
    · rw [g, List.append_nil]; exact hfA
    · obtain ⟨W', hW'⟩ := fresh_of_last g
      exact .inr ⟨A ++ W', 10, by rw [hW', List.append_assoc], .inl rfl⟩
  have h4 := PRel.start D t2 heu C.scan h1.stk
  rw [show W.length + A.length = (A ++ W).length by rw [List.length_append, Nat.add_comm]] at h4
  have key : ∃ d : ECfg, P.multi.runTo (fun c => c.backIn P.line Z.length) Z (efuel Z.length) { m := e, stack := c.stack, x := { seen := c3.x.seen } } = some d ∧ d.reps = c1.reps := by
    rcases t3 with g | g
    · exact ⟨c1, by rw [g]; exact hc1, rfl⟩
    · exact ⟨c2, by rw [g]; exact hc2, hreps.symm⟩
  obtain ⟨d, hd, hdr⟩ := key
  obtain ⟨k', p1, p2, p3⟩ := runTo_spec hd
  obtain ⟨es2, h5⟩ := run_prefix D (T := A ++ W) (A := Z') (R := R) hfW hcr k' h4 (moved_start ..) (by rw [← hZ']; exact p1)
  rw [← hZ', p2] at h5
  unfold ECfg.backIn at p3
  rw [Bool.and_eq_true, Bool.and_eq_true, beq_iff_eq, Bool.not_eq_true'] at p3
  obtain ⟨⟨p3, p4⟩, p7⟩ := p3
  obtain ⟨p5, p6⟩ := rest_iff.mp p3
  refine ⟨k + j + k', ?_⟩
  have hassoc : A ++ W ++ Z ++ R = A ++ (W ++ (Z ++ R)) := by simp
  have hassoc2 : A ++ W ++ (Z ++ R) = A ++ (W ++ (Z ++ R)) := by simp
  rw [hassoc, Multi.run_add, Multi.run_add, hc', t1]
  rw [hassoc2] at h5
  have hlen3 : c3.x.langs.length = c3.x.d.out.length := by
    rw [t4, t5, hout, hlangs, List.length_append, List.length_append, List.length_replicate, List.length_map, i3]
  refine ⟨rest_iff.mpr ⟨?_, h5.x.seen.trans p6⟩, ?_, ?_, by rw [h5.x.d.ub, t6, hub, hu, p7]; rfl⟩
  · have := PRel.idle D h5 p5
    rwa [show (A ++ W ++ Z).length = Z.length + (A ++ W).length by simp; omega]
  · rw [h5.x.langs, h5.x.d.out, List.length_append, List.length_append, List.length_map, p4, hlen3]
  · rw [h5.x.langs, h5.x.d.out, pairUp_append hlen3, pairUp_sh, ← hdr, t4, t5, hout, hlangs, pairUp_append i3]
    have := pairUp_replicate l ((lineReports S {} W).map (Rep.sh A.length))
    rw [List.length_map] at this
    rw [this, List.map_map, List.length_append]
    rfl

end Ohcount.Ragel
