import Verif.Cert.Total

/-!
C69: which parsers read their buffer to the end, and what stops the others.
-/

namespace Ohcount.Ragel
open Ohcount.Gram Ohcount.Cert

/-- All parsers of one language, but that of vim, read buffers without vertical tab to the end. -/
theorem C69_read_partial (P : Parser) (hP : P ∈ parsers) (hv : P ≠ parse_vim) : C69_full P := by
  intro l buf hb
  obtain ⟨S⟩ := safeAll P hP
  exact exec_all S l ⟨parsersTotal P hP hv, fun h => absurd h hb⟩

example : parse_c ∈ parsers ∧ parse_c ≠ parse_vim ∧ (11 : Byte) ∉ bytes "int a; /* b\r\n\"c" := by
  refine ⟨List.mem_of_getElem? (i := 13) rfl, fun h => ?_, by decide⟩
  have := congrArg Parser.name h
  revert this; decide

/-- The parsers with embedded languages that do. -/
def readers : List EParser := [Emb.Html.parser, Emb.Mxml.parser, Emb.Nix.parser, Emb.Coffeescript.parser, Emb.MetapostWithTex.parser, Emb.Haml.parser]

theorem C69_mixed_partial (P : EParser) (hP : P ∈ readers) : C69_full_mixed P := by
  intro l buf hb
  have take : ∀ {N : Nfa}, N.total = true → N.Takes buf := fun h => ⟨h, fun g => absurd g hb⟩
  revert P
  refine List.forall_mem_cons.mpr ⟨?_, List.forall_mem_cons.mpr ⟨?_, List.forall_mem_cons.mpr ⟨?_, List.forall_mem_cons.mpr ⟨?_,
    List.forall_mem_cons.mpr ⟨?_, List.forall_mem_cons.mpr ⟨?_, fun _ h => nomatch h⟩⟩⟩⟩⟩⟩
  · exact eexec_all html_M_eq (by decide) html_line_certs rfl (by decide) l fun u hu => take ((by decide +kernel : ∀ u ∈ html_line.use, (html_M.mach u.1).nfa.total = true) u hu)
  · exact eexec_all mxml_M_eq (by decide) mxml_line_certs rfl (by decide) l fun u hu => take ((by decide +kernel : ∀ u ∈ mxml_line.use, (mxml_M.mach u.1).nfa.total = true) u hu)
  · exact eexec_all nix_M_eq (by decide) nix_line_certs rfl (by decide) l fun u hu => take ((by decide +kernel : ∀ u ∈ nix_line.use, (nix_M.mach u.1).nfa.total = true) u hu)
  · exact eexec_all coffeescript_M_eq (by decide) coffeescript_line_certs rfl (by decide) l
      fun u hu => take ((by decide +kernel : ∀ u ∈ coffeescript_line.use, (coffeescript_M.mach u.1).nfa.total = true) u hu)
  · exact eexec_all metapostWithTex_M_eq (by decide) metapostWithTex_line_certs rfl (by decide) l
      fun u hu => take ((by decide +kernel : ∀ u ∈ metapostWithTex_line.use, (metapostWithTex_M.mach u.1).nfa.total = true) u hu)
  · exact eexec_all haml_M_eq (by decide) haml_line_certs rfl (by decide) l fun u hu => take ((by decide +kernel : ∀ u ∈ haml_line.use, (haml_M.mach u.1).nfa.total = true) u hu)

/-! ### vim -/

/-- No edge for the byte. -/
theorem delta_noEdge {N : Nfa} {q : State} {b : Nat} (h : ∀ e ∈ N.edges q, e.mask.has b = false) (cv : Cond → Bool) : N.delta q b cv = none := by
  have : (N.edges q).filter (fun e => e.mask.has b && e.conds.all cv) = [] := by
    rw [List.filter_eq_nil_iff]
    intro e he
    rw [h e he]; simp
  unfold Nfa.delta Nfa.enabled
  rw [this]; rfl

/-- The scanner stops inside of a token that has matched nothing. -/
theorem exec_dead {M : Machine} {v : Byte} {l : Leftover} {a : List Byte} {n : Nat} (hf : n ≤ fuel (a.length + 1))
    (hlt : ∀ k, k < n → (M.run (a ++ [v]) k (initCfg l)).p < a.length)
    (h : let c := M.run (a ++ [v]) n (initCfg l)
      c.p = a.length ∧ (∀ e ∈ M.nfa.edges c.q, e.mask.has v.toNat = false) ∧ M.nfa.accepts c.q = none ∧ c.acc = none) (r : List Byte) :
    exec M l (a ++ v :: r) = M.run (a ++ [v]) n (initCfg l) := by
  obtain ⟨hp, he, h1, h2⟩ := h
  have h3 : M.run (a ++ v :: r) n (initCfg l) = M.run (a ++ [v]) n (initCfg l) := run_shared M (r := []) n _ hlt
  have h4 : M.step (a ++ v :: r) (M.run (a ++ [v]) n (initCfg l)) = none := by
    unfold Machine.step
    rw [hp, show (a ++ v :: r)[a.length]? = some v by simp]
    dsimp only
    rw [delta_noEdge he]
    dsimp only
    split
    · rfl
    · unfold Machine.fallback
      rw [h1, h2]
  have h5 : n ≤ fuel (a ++ v :: r).length := Nat.le_trans hf (fuel_mono (by simp))
  obtain ⟨k, hk⟩ := Nat.exists_eq_add_of_le h5
  unfold exec
  rw [hk, run_add, h3, run_stopped M _ h4]

/-- `process_last_line` with nothing reported before. -/
theorem lastLine {d : Data} (n : Nat) (k : Kind) (h : d.out = [] ∧ d.ls = some 0 ∧ (d.wlc || d.lcc) = true ∧ k = (if d.lcc then .lcode else .lcomment)) :
    (d.processLastLine n).out = [⟨k, 0, n⟩] := by
  obtain ⟨h1, h2, h3, rfl⟩ := h
  unfold Data.processLastLine
  rw [h3]
  cases hc : d.lcc <;> rw [hc] at h3 <;> simp at h3 <;> simp [h3, h2, h1, Data.emit]

/-- A Vim comment after a command that has no second quotation mark before the end of its line, vim.rl:50: the line, and all that
follows, is reported as one line of code. -/
theorem C69_vim (l : Leftover) (r : List Byte) :
    lineReports parse_vim.line.machine l (bytes "set nu \" numbers" ++ 10 :: r) = [⟨.lcode, 0, 17 + r.length⟩] := by
  rw [lineReports_leftover _ l {}]
  unfold lineReports
  rw [exec_dead (M := parse_vim.line.machine) (v := 10) (l := {}) (a := bytes "set nu \" numbers") (n := 18) (by decide) (by decide +kernel)
    (by decide +kernel) r]
  rw [lastLine _ .lcode (by decide +kernel), show (bytes "set nu \" numbers" ++ 10 :: r).length = 17 + r.length by
    rw [List.length_append, List.length_cons, show (bytes "set nu \" numbers").length = 16 from rfl]; omega]

/-! ### Pages -/

/-- The parsers of pages with server-side code. -/
def pageParsers : List EParser :=
  [Emb.Jsp.parser, Emb.Phphtml.parser, Emb.Clearsilverhtml.parser, Emb.CsAspx.parser, Emb.Rhtml.parser, Emb.VbAspx.parser]

/-- Where the parser has stopped it has reported nothing, and is in a line of kind `k` that started with the buffer. -/
def swallowed (k : Kind) : Option ECfg → Bool
  | some c => decide (c.x.langs = [] ∧ c.x.d.out = [] ∧ c.x.d.ls = some 0 ∧ (c.x.d.wlc || c.x.d.lcc) = true ∧ k = (if c.x.d.lcc then .lcode else .lcomment))
  | none => false

/-- A text in which the parser stops, so that it, and all that follows, is reported as one line. -/
theorem swallows {P : EParser} (hS : Shiftable P P.line) (hC : Checked P P.line false false) {T : List Byte} (hT : T.getLast? = some 10) (k : Kind)
    (h : swallowed k (P.multi.stopsIn T (efuel T.length) (einit P.line {})) = true) (l : ELeft) (X : List Byte) : P.reports l (T ++ X) = [⟨0, k, 0, T.length + X.length⟩] := by
  cases hc : P.multi.stopsIn T (efuel T.length) (einit P.line {}) with
  | none => rw [hc] at h; cases h
  | some c =>
    rw [hc] at h
    obtain ⟨h1, h2⟩ := of_decide_eq_true h
    rw [stopped_reports hS hC hT hc, List.length_append]
    have h3 := lastLine (T.length + X.length) k h2
    unfold ECfg.endReps EData.upd
    dsimp only
    rw [h3, h1, h2.1]
    rfl

/-- A comment with a hyphen inside, jsp.rl:58-68: the hyphen matches none of the alternatives, and the page is reported as one line
of comment, whatever follows. -/
theorem C69_hyphen (P : EParser) (hP : P ∈ pageParsers) (l : ELeft) (X : List Byte) :
    P.reports l (bytes "<!-- a-b -->\n" ++ X) = [⟨0, .lcomment, 0, 13 + X.length⟩] := by
  revert P
  refine List.forall_mem_cons.mpr ⟨?_, List.forall_mem_cons.mpr ⟨?_, List.forall_mem_cons.mpr ⟨?_, List.forall_mem_cons.mpr ⟨?_,
    List.forall_mem_cons.mpr ⟨?_, List.forall_mem_cons.mpr ⟨?_, fun _ h => nomatch h⟩⟩⟩⟩⟩⟩
  · exact swallows (P := Emb.Jsp.parser) (embShiftLineAll _ (List.mem_of_getElem? (i := 3) rfl)) (embLineAll _ (List.mem_of_getElem? (i := 5) rfl)) (by decide) .lcomment (by rw [jsp_M_eq]; decide +kernel) l X
  · exact swallows (P := Emb.Phphtml.parser) (embShiftLineAll _ (List.mem_of_getElem? (i := 4) rfl)) (embLineAll _ (List.mem_of_getElem? (i := 6) rfl)) (by decide) .lcomment (by rw [phphtml_M_eq]; decide +kernel) l X
  · exact swallows (P := Emb.Clearsilverhtml.parser) (embShiftLineAll _ (List.mem_of_getElem? (i := 5) rfl)) (embLineAll _ (List.mem_of_getElem? (i := 7) rfl)) (by decide) .lcomment (by rw [clearsilverhtml_M_eq]; decide +kernel) l X
  · exact swallows (P := Emb.CsAspx.parser) (embShiftLineAll _ (List.mem_of_getElem? (i := 6) rfl)) (embLineAll _ (List.mem_of_getElem? (i := 8) rfl)) (by decide) .lcomment (by rw [csAspx_M_eq]; decide +kernel) l X
  · exact swallows (P := Emb.Rhtml.parser) (embShiftLineAll _ (List.mem_of_getElem? (i := 7) rfl)) (embLineAll _ (List.mem_of_getElem? (i := 9) rfl)) (by decide) .lcomment (by rw [rhtml_M_eq]; decide +kernel) l X
  · exact swallows (P := Emb.VbAspx.parser) (embShiftLineAll _ (List.mem_of_getElem? (i := 8) rfl)) (embLineAll _ (List.mem_of_getElem? (i := 10) rfl)) (by decide) .lcomment (by rw [vbAspx_M_eq]; decide +kernel) l X

/-- A backslash before the line end in an attribute value, jsp.rl:71-90: the page is reported as one line of code. -/
theorem C69_attribute (P : EParser) (hP : P ∈ pageParsers) (l : ELeft) (X : List Byte) :
    P.reports l (bytes "<a href='b\\\n'>\n" ++ X) = [⟨0, .lcode, 0, 15 + X.length⟩] := by
  revert P
  refine List.forall_mem_cons.mpr ⟨?_, List.forall_mem_cons.mpr ⟨?_, List.forall_mem_cons.mpr ⟨?_, List.forall_mem_cons.mpr ⟨?_,
    List.forall_mem_cons.mpr ⟨?_, List.forall_mem_cons.mpr ⟨?_, fun _ h => nomatch h⟩⟩⟩⟩⟩⟩
  · exact swallows (P := Emb.Jsp.parser) (embShiftLineAll _ (List.mem_of_getElem? (i := 3) rfl)) (embLineAll _ (List.mem_of_getElem? (i := 5) rfl)) (by decide) .lcode (by rw [jsp_M_eq]; decide +kernel) l X
  · exact swallows (P := Emb.Phphtml.parser) (embShiftLineAll _ (List.mem_of_getElem? (i := 4) rfl)) (embLineAll _ (List.mem_of_getElem? (i := 6) rfl)) (by decide) .lcode (by rw [phphtml_M_eq]; decide +kernel) l X
  · exact swallows (P := Emb.Clearsilverhtml.parser) (embShiftLineAll _ (List.mem_of_getElem? (i := 5) rfl)) (embLineAll _ (List.mem_of_getElem? (i := 7) rfl)) (by decide) .lcode (by rw [clearsilverhtml_M_eq]; decide +kernel) l X
  · exact swallows (P := Emb.CsAspx.parser) (embShiftLineAll _ (List.mem_of_getElem? (i := 6) rfl)) (embLineAll _ (List.mem_of_getElem? (i := 8) rfl)) (by decide) .lcode (by rw [csAspx_M_eq]; decide +kernel) l X
  · exact swallows (P := Emb.Rhtml.parser) (embShiftLineAll _ (List.mem_of_getElem? (i := 7) rfl)) (embLineAll _ (List.mem_of_getElem? (i := 9) rfl)) (by decide) .lcode (by rw [rhtml_M_eq]; decide +kernel) l X
  · exact swallows (P := Emb.VbAspx.parser) (embShiftLineAll _ (List.mem_of_getElem? (i := 8) rfl)) (embLineAll _ (List.mem_of_getElem? (i := 10) rfl)) (by decide) .lcode (by rw [vbAspx_M_eq]; decide +kernel) l X

/-! ### Perl -/

theorem callback_shared {M : Multi} (hM : ∀ sw ∈ M.sws, ∀ y ∈ sw, y.2 ≠ .checkBlank) (buf buf' : List Byte) (l ts : Nat) (s : ES) :
    M.callback buf l ts s = M.callback buf' l ts s ∧ (M.callback buf l ts s).np = s.np := by
  unfold Multi.callback
  have : M.op l s.x.d.ent ≠ .checkBlank := by
    unfold Multi.op
    cases hf : (M.sws.getD l []).find? fun y => y.1 == s.x.d.ent with
    | none => exact fun h => nomatch h
    | some y =>
      have hy := List.mem_of_find?_eq_some hf
      rw [List.getD_eq_getElem?_getD] at hy
      cases hl : M.sws[l]? with
      | none => rw [hl] at hy; cases hy
      | some sw => rw [hl] at hy; exact hM sw (List.mem_of_getElem? hl) y hy
  revert this
  dsimp only
  cases M.op l s.x.d.ent <;> simp

theorem act_shared {M : Multi} (hM : ∀ sw ∈ M.sws, ∀ y ∈ sw, y.2 ≠ .checkBlank) {buf buf' : List Byte} {ts : Nat} {s : ES} {n : Nat} (hs : s.np ≤ n)
    (h1 : n ≤ buf.length) (h2 : n ≤ buf'.length) (a : Act) :
    M.act buf ts s a = M.act buf' ts s a ∧ ((M.act buf ts s a).jump.isSome = false → (M.act buf ts s a).np ≤ n) := by
  have e1 : ¬ buf.length < s.np := by omega
  have e2 : ¬ buf'.length < s.np := by omega
  cases a with
  | emb e =>
    cases e with
    | cb l =>
      obtain ⟨h, g⟩ := callback_shared hM buf buf' l ts s
      exact ⟨h, fun _ => by show (M.callback buf l ts s).np ≤ n; rw [g]; exact hs⟩
    | eofCommit =>
      unfold Multi.act
      dsimp only
      rw [if_neg e1, if_neg e2]
      exact ⟨rfl, fun _ => hs⟩
    | back => exact ⟨rfl, fun h => nomatch h⟩
    | _ => exact ⟨rfl, fun _ => hs⟩
  | cb =>
    obtain ⟨h, g⟩ := callback_shared hM buf buf' 0 ts s
    exact ⟨h, fun _ => by show (M.callback buf 0 ts s).np ≤ n; rw [g]; exact hs⟩
  | fhold i => exact ⟨rfl, fun _ => Nat.le_trans (Nat.sub_le _ _) hs⟩
  | _ => exact ⟨rfl, fun _ => hs⟩

theorem acts_shared {M : Multi} (hM : ∀ sw ∈ M.sws, ∀ y ∈ sw, y.2 ≠ .checkBlank) {buf buf' : List Byte} {ts n : Nat} (h1 : n ≤ buf.length) (h2 : n ≤ buf'.length) :
    ∀ (l : List Act) {s : ES}, s.np ≤ n → M.acts buf ts s l = M.acts buf' ts s l
  | [], _, _ => rfl
  | a :: r, s, hs => by
    obtain ⟨g1, g2⟩ := act_shared hM (ts := ts) hs h1 h2 a
    unfold Multi.acts
    rw [← g1]
    dsimp only
    cases hj : (M.act buf ts s a).jump.isSome with
    | true => rfl
    | false => exact acts_shared hM h1 h2 r (g2 hj)

theorem finish_shared {M : Multi} (hM : ∀ sw ∈ M.sws, ∀ y ∈ sw, y.2 ≠ .checkBlank) (buf buf' : List Byte) (c : ECfg) (ts : Nat) (x : EData) (te k : Nat) :
    M.finish buf c ts x te k = M.finish buf' c ts x te k := by
  unfold Multi.finish
  congr 1
  cases (M.mach c.m).ends.getD k .none <;> first | rfl | exact (callback_shared hM buf buf' _ _ _).1

/-- A step before the byte `v` does not look behind it. -/
theorem estep_shared {M : Multi} (hM : ∀ sw ∈ M.sws, ∀ y ∈ sw, y.2 ≠ .checkBlank) {a r r' : List Byte} {v : Byte} {c : ECfg} (h : c.p < a.length) :
    M.step (a ++ v :: r') c = M.step (a ++ v :: r) c := by
  have hg : ∀ (i : Nat), i ≤ a.length → (a ++ v :: r')[i]? = (a ++ v :: r)[i]? := by
    intro i hi
    rcases Nat.lt_or_eq_of_le hi with h | h
    · rw [List.getElem?_append_left h, List.getElem?_append_left h]
    · subst h; simp
  have hcv : condAt (a ++ v :: r') c.p c.x.d = condAt (a ++ v :: r) c.p c.x.d := by
    funext cc
    unfold condAt startsLineAt
    rw [hg (c.p + 1) h, hg (c.p - 1) (by omega)]
  have l1 : a.length + 1 ≤ (a ++ v :: r').length := by simp
  have l2 : a.length + 1 ≤ (a ++ v :: r).length := by simp
  unfold Multi.step
  rw [hcv, hg c.p (by omega)]
  cases c.bad with
  | true => rfl
  | false =>
    simp only [Bool.false_eq_true, if_false]
    cases ((a ++ v :: r)[c.p]?).bind fun b => (M.mach c.m).nfa.delta c.q b.toNat (condAt (a ++ v :: r) c.p c.x.d) with
    | none =>
      dsimp only
      split
      · rfl
      · unfold Multi.fallback
        dsimp only
        rw [acts_shared hM l1 l2 _ (show c.p + 1 ≤ a.length + 1 by omega)]
        simp only [finish_shared hM (a ++ v :: r') (a ++ v :: r)]
    | some y =>
      dsimp only
      rw [acts_shared hM l1 l2 _ (show c.p + 1 ≤ a.length + 1 by omega)]
      simp only [finish_shared hM (a ++ v :: r') (a ++ v :: r)]

theorem erun_shared {M : Multi} (hM : ∀ sw ∈ M.sws, ∀ y ∈ sw, y.2 ≠ .checkBlank) {a r r' : List Byte} {v : Byte} : ∀ (n : Nat) (c : ECfg),
    (∀ k, k < n → (M.run (a ++ v :: r) k c).p < a.length) → M.run (a ++ v :: r') n c = M.run (a ++ v :: r) n c
  | 0, _, _ => rfl
  | n + 1, c, h => by
    show (match M.step (a ++ v :: r') c with | none => c | some x => M.run (a ++ v :: r') n x)
      = (match M.step (a ++ v :: r) c with | none => c | some x => M.run (a ++ v :: r) n x)
    rw [estep_shared hM (r := r) (show c.p < a.length from h 0 (by omega))]
    cases hs : M.step (a ++ v :: r) c with
    | none => rfl
    | some x =>
      apply erun_shared hM
      intro k hk
      have := h (k + 1) (by omega)
      rw [show M.run (a ++ v :: r) (k + 1) c = match M.step (a ++ v :: r) c with | none => c | some x => M.run (a ++ v :: r) k x from rfl, hs] at this
      exact this

/-- The parser stops inside of a token that has matched nothing. -/
theorem eexec_dead {M : Multi} (hM : ∀ sw ∈ M.sws, ∀ y ∈ sw, y.2 ≠ .checkBlank) {m : Nat} {v : Byte} {l : ELeft} {a : List Byte} {n : Nat}
    (hlt : ∀ k, k < n → (M.run (a ++ [v]) k (einit m l)).p < a.length)
    (h : let c := M.run (a ++ [v]) n (einit m l)
      c.p = a.length ∧ (∀ e ∈ (M.mach c.m).nfa.edges c.q, e.mask.has v.toNat = false) ∧ (M.mach c.m).nfa.accepts c.q = none ∧ c.acc = none)
    (r : List Byte) (hs : M.step (a ++ v :: r) (eexec M m l (a ++ v :: r)) = none) :
    eexec M m l (a ++ v :: r) = M.run (a ++ [v]) n (einit m l) := by
  obtain ⟨hp, he, h1, h2⟩ := h
  have h3 : M.run (a ++ v :: r) n (einit m l) = M.run (a ++ [v]) n (einit m l) := erun_shared hM (r := []) n _ hlt
  rw [← h3]
  refine Multi.run_unique hs ?_
  rw [h3, step_none_iff]
  right
  rw [hp, show (a ++ v :: r)[a.length]? = some v by simp]
  exact ⟨delta_noEdge he _, .inr ⟨h1, h2⟩⟩

/-- A line that consists of the character `=`, perl.rl:49: the file is reported as one line of comment, whatever follows. -/
theorem C69_perl (l : ELeft) (X : List Byte) : Emb.Perl.parser.reports l (bytes "=" ++ 10 :: X) = [⟨0, .lcomment, 0, 2 + X.length⟩] := by
  rw [reports_same Emb.Perl.parser {} l]
  have hs := (C62_lines Emb.Perl.parser (List.mem_of_getElem? (i := 11) rfl) {} (bytes "=" ++ 10 :: X)).1
  have h := eexec_dead (M := Emb.Perl.parser.multi) (by rw [perl_M_eq]; decide +kernel) (n := 1) (by rw [perl_M_eq]; decide +kernel) (by rw [perl_M_eq]; decide +kernel) X hs
  unfold EParser.reports EParser.final
  rw [h, perl_M_eq]
  unfold EData.upd
  dsimp only
  rw [lastLine _ .lcomment (by decide +kernel)]
  rw [show (perl_M.run (bytes "=" ++ [10]) 1 (einit Emb.Perl.parser.line {})).x.langs = [] by decide +kernel,
    show (perl_M.run (bytes "=" ++ [10]) 1 (einit Emb.Perl.parser.line {})).x.d.out = [] by decide +kernel,
    show (bytes "=" ++ 10 :: X).length = 2 + X.length by rw [List.length_append, List.length_cons, show (bytes "=").length = 1 from rfl]; omega]
  rfl

/-! ### The negations -/

theorem C69_negation : ¬ C69_full parse_vim := by
  intro h
  have := h {} (bytes "a \"\nb\n") (by decide)
  revert this
  decide +kernel

theorem C69_negation_mixed (P : EParser) (hP : P ∈ Emb.Perl.parser :: pageParsers) : ¬ C69_full_mixed P := by
  have key : ∀ P ∈ Emb.Perl.parser :: pageParsers, (11 : Byte) ∉ bytes "=\n<!-- a-b -->\n" ∧
      (eexec P.multi P.line {} (bytes "=\n<!-- a-b -->\n")).p ≠ (bytes "=\n<!-- a-b -->\n").length := by
    refine List.forall_mem_cons.mpr ⟨?_, List.forall_mem_cons.mpr ⟨?_, List.forall_mem_cons.mpr ⟨?_, List.forall_mem_cons.mpr ⟨?_, List.forall_mem_cons.mpr ⟨?_,
      List.forall_mem_cons.mpr ⟨?_, List.forall_mem_cons.mpr ⟨?_, fun _ h => nomatch h⟩⟩⟩⟩⟩⟩⟩
    · rw [perl_M_eq]; decide +kernel
    · rw [jsp_M_eq]; decide +kernel
    · rw [phphtml_M_eq]; decide +kernel
    · rw [clearsilverhtml_M_eq]; decide +kernel
    · rw [csAspx_M_eq]; decide +kernel
    · rw [rhtml_M_eq]; decide +kernel
    · rw [vbAspx_M_eq]; decide +kernel
  obtain ⟨h1, h2⟩ := key P hP
  exact fun h => h2 (h {} _ h1)

/-- Every parser is decided, one way or the other. -/
theorem C69_decided : (∀ P ∈ parsers, P ≠ parse_vim ↔ C69_full P) ∧
    ∀ P ∈ embParsers, (P ∈ readers ∧ C69_full_mixed P) ∨ (P ∈ Emb.Perl.parser :: pageParsers ∧ ¬ C69_full_mixed P) := by
  refine ⟨fun P hP => ⟨C69_read_partial P hP, ?_⟩, ?_⟩
  · rintro h rfl
    exact C69_negation h
  · have h : ∀ P ∈ embParsers, P ∈ readers ∨ P ∈ Emb.Perl.parser :: pageParsers := List.forall_mem_cons.mpr ⟨.inl (List.mem_of_getElem? (i := 0) rfl), List.forall_mem_cons.mpr ⟨.inl (List.mem_of_getElem? (i := 1) rfl), List.forall_mem_cons.mpr ⟨.inl (List.mem_of_getElem? (i := 2) rfl), List.forall_mem_cons.mpr ⟨.inl (List.mem_of_getElem? (i := 3) rfl), List.forall_mem_cons.mpr ⟨.inl (List.mem_of_getElem? (i := 4) rfl), List.forall_mem_cons.mpr ⟨.inr (List.mem_of_getElem? (i := 1) rfl), List.forall_mem_cons.mpr ⟨.inr (List.mem_of_getElem? (i := 2) rfl), List.forall_mem_cons.mpr ⟨.inr (List.mem_of_getElem? (i := 3) rfl), List.forall_mem_cons.mpr ⟨.inr (List.mem_of_getElem? (i := 4) rfl), List.forall_mem_cons.mpr ⟨.inr (List.mem_of_getElem? (i := 5) rfl), List.forall_mem_cons.mpr ⟨.inr (List.mem_of_getElem? (i := 6) rfl), List.forall_mem_cons.mpr ⟨.inr (List.mem_of_getElem? (i := 0) rfl), List.forall_mem_cons.mpr ⟨.inl (List.mem_of_getElem? (i := 5) rfl), fun _ h => nomatch h⟩⟩⟩⟩⟩⟩⟩⟩⟩⟩⟩⟩⟩
    intro P hP
    rcases h P hP with g | g
    · exact .inl ⟨g, C69_mixed_partial P g⟩
    · exact .inr ⟨g, C69_negation_mixed P g⟩

/-- The entity scanners of all the parsers with embedded languages read every buffer to the end (those of one language: see C46). -/
theorem C69_entities (P : EParser) (hP : P ∈ embParsers) (l : ELeft) (buf : List Byte) : (eexec P.multi P.entity l buf).p = buf.length := by
  have take : ∀ {N : Nfa}, N.total = true ∧ N.single 11 = true → N.Takes buf := fun h => ⟨h.1, fun _ => h.2⟩
  revert P
  refine List.forall_mem_cons.mpr ⟨?_, List.forall_mem_cons.mpr ⟨?_, List.forall_mem_cons.mpr ⟨?_, List.forall_mem_cons.mpr ⟨?_, List.forall_mem_cons.mpr ⟨?_, List.forall_mem_cons.mpr ⟨?_, List.forall_mem_cons.mpr ⟨?_, List.forall_mem_cons.mpr ⟨?_, List.forall_mem_cons.mpr ⟨?_, List.forall_mem_cons.mpr ⟨?_, List.forall_mem_cons.mpr ⟨?_, List.forall_mem_cons.mpr ⟨?_, List.forall_mem_cons.mpr ⟨?_, fun _ h => nomatch h⟩⟩⟩⟩⟩⟩⟩⟩⟩⟩⟩⟩⟩
  · exact eexec_all html_M_eq (by decide) html_entity_certs rfl (by decide) l fun u hu => take ((by decide +kernel : ∀ u ∈ html_entity.use, (html_M.mach u.1).nfa.total = true ∧ (html_M.mach u.1).nfa.single 11 = true) u hu)
  · exact eexec_all mxml_M_eq (by decide) mxml_entity_certs rfl (by decide) l fun u hu => take ((by decide +kernel : ∀ u ∈ mxml_entity.use, (mxml_M.mach u.1).nfa.total = true ∧ (mxml_M.mach u.1).nfa.single 11 = true) u hu)
  · exact eexec_all nix_M_eq (by decide) nix_entity_certs rfl (by decide) l fun u hu => take ((by decide +kernel : ∀ u ∈ nix_entity.use, (nix_M.mach u.1).nfa.total = true ∧ (nix_M.mach u.1).nfa.single 11 = true) u hu)
  · exact eexec_all coffeescript_M_eq (by decide) coffeescript_entity_certs rfl (by decide) l fun u hu => take ((by decide +kernel : ∀ u ∈ coffeescript_entity.use, (coffeescript_M.mach u.1).nfa.total = true ∧ (coffeescript_M.mach u.1).nfa.single 11 = true) u hu)
  · exact eexec_all metapostWithTex_M_eq (by decide) metapostWithTex_entity_certs rfl (by decide) l fun u hu => take ((by decide +kernel : ∀ u ∈ metapostWithTex_entity.use, (metapostWithTex_M.mach u.1).nfa.total = true ∧ (metapostWithTex_M.mach u.1).nfa.single 11 = true) u hu)
  · exact eexec_all jsp_M_eq (by decide) jsp_entity_certs rfl (by decide) l fun u hu => take ((by decide +kernel : ∀ u ∈ jsp_entity.use, (jsp_M.mach u.1).nfa.total = true ∧ (jsp_M.mach u.1).nfa.single 11 = true) u hu)
  · exact eexec_all phphtml_M_eq (by decide) phphtml_entity_certs rfl (by decide) l fun u hu => take ((by decide +kernel : ∀ u ∈ phphtml_entity.use, (phphtml_M.mach u.1).nfa.total = true ∧ (phphtml_M.mach u.1).nfa.single 11 = true) u hu)
  · exact eexec_all clearsilverhtml_M_eq (by decide) clearsilverhtml_entity_certs rfl (by decide) l fun u hu => take ((by decide +kernel : ∀ u ∈ clearsilverhtml_entity.use, (clearsilverhtml_M.mach u.1).nfa.total = true ∧ (clearsilverhtml_M.mach u.1).nfa.single 11 = true) u hu)
  · exact eexec_all csAspx_M_eq (by decide) csAspx_entity_certs rfl (by decide) l fun u hu => take ((by decide +kernel : ∀ u ∈ csAspx_entity.use, (csAspx_M.mach u.1).nfa.total = true ∧ (csAspx_M.mach u.1).nfa.single 11 = true) u hu)
  · exact eexec_all rhtml_M_eq (by decide) rhtml_entity_certs rfl (by decide) l fun u hu => take ((by decide +kernel : ∀ u ∈ rhtml_entity.use, (rhtml_M.mach u.1).nfa.total = true ∧ (rhtml_M.mach u.1).nfa.single 11 = true) u hu)
  · exact eexec_all vbAspx_M_eq (by decide) vbAspx_entity_certs rfl (by decide) l fun u hu => take ((by decide +kernel : ∀ u ∈ vbAspx_entity.use, (vbAspx_M.mach u.1).nfa.total = true ∧ (vbAspx_M.mach u.1).nfa.single 11 = true) u hu)
  · exact eexec_all perl_M_eq (by decide) perl_entity_certs rfl (by decide) l fun u hu => take ((by decide +kernel : ∀ u ∈ perl_entity.use, (perl_M.mach u.1).nfa.total = true ∧ (perl_M.mach u.1).nfa.single 11 = true) u hu)
  · exact eexec_all haml_M_eq (by decide) haml_entity_certs rfl (by decide) l fun u hu => take ((by decide +kernel : ∀ u ∈ haml_entity.use, (haml_M.mach u.1).nfa.total = true ∧ (haml_M.mach u.1).nfa.single 11 = true) u hu)

end Ohcount.Ragel
