import Verif.EmbedRegions
import Verif.Cert.EP

/-!
C68: how the line callbacks of a parser with embedded languages match the lines of the text.
-/

namespace Ohcount.Ragel

open Cert Gram

/-! ### The lines of two texts -/

theorem lineEnd_left {T : List Byte} (hT : T.getLast? = some 10) (U : List Byte) {p : Nat} (hp : p ≤ T.length) : lineEnd (T ++ U) p = lineEnd T p := by
  cases p with
  | zero => rfl
  | succ p =>
    have h1 : (T ++ U)[p]? = T[p]? := List.getElem?_append_left (by omega)
    show (match (T ++ U)[p]? with | none => false | some b => _) = (match T[p]? with | none => false | some b => _)
    rw [h1]
    by_cases h2 : p + 1 < T.length
    · rw [List.getElem?_append_left h2]
    · have : T[p]? = some 10 := by
        rw [← hT, List.getLast?_eq_getElem?]; congr 1; omega
      rw [this]; rfl

theorem lineEnd_right (T U : List Byte) (p : Nat) : lineEnd (T ++ U) (T.length + (p + 1)) = lineEnd U (p + 1) := by
  rw [← Nat.add_assoc]
  show (match (T ++ U)[T.length + p]? with | none => false | some b => _ || _ || (_ && match (T ++ U)[T.length + p + 1]? with | some c => _ | none => _)) =
    (match U[p]? with | none => false | some b => _)
  rw [List.getElem?_append_right (by omega), List.getElem?_append_right (by omega), show T.length + p - T.length = p by omega,
    show T.length + p + 1 - T.length = p + 1 by omega]
  rfl

theorem lineEnds_succ (U : List Byte) : lineEnds U = ((List.range U.length).map (· + 1)).filter (lineEnd U) := by
  unfold lineEnds
  rw [List.range_succ_eq_map, List.filter_cons]
  simp only [lineEnd, Bool.false_eq_true, if_false]

theorem lineEnds_append {T : List Byte} (hT : T.getLast? = some 10) (U : List Byte) :
    lineEnds (T ++ U) = lineEnds T ++ (lineEnds U).map (T.length + ·) := by
  rw [lineEnds_succ U]
  unfold lineEnds
  rw [List.length_append, show T.length + U.length + 1 = (T.length + 1) + U.length by omega, List.range_add, List.filter_append]
  congr 1
  · apply List.filter_congr
    intro p hp
    rw [List.mem_range] at hp
    exact lineEnd_left hT U (by omega)
  · rw [List.filter_map, List.filter_map, List.map_map]
    have : ∀ p, (lineEnd (T ++ U) ∘ (T.length + 1 + ·)) p = (lineEnd U ∘ (· + 1)) p := by
      intro p
      show lineEnd (T ++ U) (T.length + 1 + p) = lineEnd U (p + 1)
      rw [show T.length + 1 + p = T.length + (p + 1) by omega, lineEnd_right]
    rw [show (lineEnd (T ++ U) ∘ (T.length + 1 + ·)) = (lineEnd U ∘ (· + 1)) from funext this]
    apply List.map_congr_left
    intro p _
    show T.length + 1 + p = T.length + (p + 1)
    omega

theorem zip_tail (x : Nat) : ∀ A B : List Nat, (x :: (A ++ B)).zip (A ++ B) = (x :: A).zip A ++ (A.getLastD x :: B).zip B
  | [], B => by simp
  | a :: A, B => by
    have := zip_tail a A B
    simp only [List.cons_append, List.zip_cons_cons, List.getLastD_cons] at this ⊢
    rw [this]

theorem lineEnds_last {T : List Byte} (hT : T.getLast? = some 10) : (lineEnds T).getLastD 0 = T.length := by
  have h : lineEnd T T.length = true := by
    cases hl : T.length with
    | zero => rw [List.length_eq_zero_iff.mp hl] at hT; cases hT
    | succ n =>
      have : T[n]? = some 10 := by rw [← hT, List.getLast?_eq_getElem?, hl]; rfl
      show (match T[n]? with | none => false | some b => _) = true
      rw [this]; rfl
  unfold lineEnds
  rw [List.range_succ, List.filter_append, List.filter_cons, h]
  simp

theorem terminated_append {T : List Byte} (hT : T = [] ∨ T.getLast? = some 10) (U : List Byte) :
    terminated (T ++ U) = terminated T ++ (terminated U).map fun x => (T.length + x.1, T.length + x.2) := by
  rcases hT with hT | hT
  · subst hT
    have : terminated ([] : List Byte) = [] := rfl
    rw [this, List.nil_append, List.nil_append]
    conv => lhs; rw [← List.map_id (terminated U)]
    apply List.map_congr_left
    intro x _
    show x = (0 + x.1, 0 + x.2)
    rw [Nat.zero_add, Nat.zero_add]
  · unfold terminated
    rw [lineEnds_append hT, zip_tail, lineEnds_last hT]
    congr 1
    have : (T.length :: (lineEnds U).map (T.length + ·)) = (0 :: lineEnds U).map (T.length + ·) := by simp
    rw [this, List.zip_map]
    rfl

/-! ### One callback for each line -/

/-- A callback for the line from `x.1` to `x.2`: it ends with the line and starts in it. -/
def OfLine (x : Nat × Nat) (r : ERep) : Prop := r.e = x.2 ∧ x.1 ≤ r.s ∧ r.s < x.2

instance (x : Nat × Nat) (r : ERep) : Decidable (OfLine x r) := by unfold OfLine; infer_instance

/-- Each line has one callback, in order. -/
def Each1 (buf : List Byte) (rs : List ERep) : Prop := Each OfLine (terminated buf) rs

/-- C68 in full: in a text of complete lines each line has one callback. -/
def C68_full (P : EParser) : Prop := ∀ (l : ELeft) (buf : List Byte), Plain buf → buf.getLast? = some 10 → Each1 buf (P.reports l buf)

theorem Each.length_eq {α β : Type} {R : α → β → Prop} : ∀ {l : List α} {r : List β}, Each R l r → l.length = r.length
  | _, _, .nil => rfl
  | _, _, .cons _ h => by rw [List.length_cons, List.length_cons, h.length_eq]

/-- Texts with more or fewer callbacks than lines.  A tag, a comment or a POD line over a line end, a string that is not closed. -/
def miscounted : List (EParser × List Byte) := [
  (Emb.Html.parser, bytes "<style\ntype='text/css'>\n"),
  (Emb.Mxml.parser, bytes "<!--\n\n"),
  (Emb.Nix.parser, bytes "/*\n\n"),
  (Emb.Coffeescript.parser, bytes "###\n\n\n"),
  (Emb.Jsp.parser, bytes "<style\ntype='text/css'>\n"),
  (Emb.Phphtml.parser, bytes "<style\ntype='text/css'>\n"),
  (Emb.Clearsilverhtml.parser, bytes "<style\ntype='text/css'>\n"),
  (Emb.CsAspx.parser, bytes "<style\ntype='text/css'>\n"),
  (Emb.Rhtml.parser, bytes "<style\ntype='text/css'>\n"),
  (Emb.VbAspx.parser, bytes "<style\ntype='text/css'>\n"),
  (Emb.Perl.parser, bytes "=\n\n"),
  (Emb.Haml.parser, bytes "a|\n\n")]

theorem miscounts : ∀ x ∈ miscounted, Plain x.2 ∧ x.2.getLast? = some 10 ∧ (x.1.reports {} x.2).length ≠ (terminated x.2).length := by
  decide +kernel

/-- Every parser but one miscounts the lines of some text. -/
theorem C68_negation (P : EParser) (hP : P ∈ embParsers) (hn : P ≠ Emb.MetapostWithTex.parser) : ¬ C68_full P := by
  have : ∃ t, (P, t) ∈ miscounted := by
    simp only [embParsers, List.mem_cons, List.not_mem_nil, or_false] at hP
    rcases hP with rfl | rfl | rfl | rfl | rfl | rfl | rfl | rfl | rfl | rfl | rfl | rfl | rfl
    · exact ⟨_, List.mem_of_getElem? (i := 0) rfl⟩
    · exact ⟨_, List.mem_of_getElem? (i := 1) rfl⟩
    · exact ⟨_, List.mem_of_getElem? (i := 2) rfl⟩
    · exact ⟨_, List.mem_of_getElem? (i := 3) rfl⟩
    · exact absurd rfl hn
    · exact ⟨_, List.mem_of_getElem? (i := 4) rfl⟩
    · exact ⟨_, List.mem_of_getElem? (i := 5) rfl⟩
    · exact ⟨_, List.mem_of_getElem? (i := 6) rfl⟩
    · exact ⟨_, List.mem_of_getElem? (i := 7) rfl⟩
    · exact ⟨_, List.mem_of_getElem? (i := 8) rfl⟩
    · exact ⟨_, List.mem_of_getElem? (i := 9) rfl⟩
    · exact ⟨_, List.mem_of_getElem? (i := 10) rfl⟩
    · exact ⟨_, List.mem_of_getElem? (i := 11) rfl⟩
  obtain ⟨t, ht⟩ := this
  intro h
  obtain ⟨h1, h2, h3⟩ := miscounts _ ht
  exact h3 (h {} t h1 h2).length_eq.symm

/-- The parser for MetaPost with TeX never does: it has no token that contains a line end. -/
theorem C68_metapost : C68_full Emb.MetapostWithTex.parser := by
  intro l buf hb hl
  exact reports_exact (use := [1, 0]) (fun m hm => Classical.choice (metapostWithTex_exact m hm)) (by decide)
    (embStrictLineAll _ (List.mem_of_getElem? (i := 3) rfl)) l hb hl

/-- The parsers for which C68 holds in full. -/
theorem C68_exactly (P : EParser) (hP : P ∈ embParsers) : C68_full P ↔ P = Emb.MetapostWithTex.parser := by
  refine ⟨fun h => ?_, fun h => h ▸ C68_metapost⟩
  apply Classical.byContradiction
  intro hn
  exact C68_negation P hP hn h

/-- TeX from one line to the middle of a later one, after a line that is left blank behind `btex`. -/
example : Plain (bytes "draw btex \n  % x\n\n$a$ etex;\n\"b\n") ∧ (bytes "draw btex \n  % x\n\n$a$ etex;\n\"b\n").getLast? = some 10 ∧
    Emb.MetapostWithTex.parser.reports {} (bytes "draw btex \n  % x\n\n$a$ etex;\n\"b\n") =
      [⟨0, .lcode, 0, 11⟩, ⟨1, .lcomment, 11, 17⟩, ⟨1, .lblank, 17, 18⟩, ⟨0, .lcode, 18, 28⟩, ⟨0, .lcode, 28, 31⟩] := by
  decide +kernel

/-! ### Pages for which it holds -/

/-- What a text has to be for C68: complete lines of the page that are reported one by one, or a region with correct text in a language
whose constructs are specified. -/
def Piece.Regular (P : EParser) : Piece → Prop
  | .plain T => Each1 T (P.reports {} T)
  | .region B W => ∃ L, (B.sub, L) ∈ classified ∧ Plain W ∧ L.WellFormed W

theorem Each.append {α β : Type} {R : α → β → Prop} : ∀ {l l' : List α} {r r' : List β}, Each R l r → Each R l' r' → Each R (l ++ l') (r ++ r')
  | _, _, _, _, .nil, h => h
  | _, _, _, _, .cons g h, h' => .cons g (h.append h')

theorem Each1.sh {U : List Byte} {rs : List ERep} (k : Nat) (h : Each1 U rs) :
    Each OfLine ((terminated U).map fun x => (k + x.1, k + x.2)) (rs.map (ERep.sh k)) := by
  unfold Each1 at h
  generalize terminated U = l at h
  induction h with
  | nil => exact .nil
  | cons g _ ih =>
    refine .cons ?_ ih
    obtain ⟨h1, h2, h3⟩ := g
    refine ⟨?_, ?_, ?_⟩ <;> simp only [ERep.sh] <;> omega

theorem Each1.append {T U : List Byte} {rs rs' : List ERep} (hT : T = [] ∨ T.getLast? = some 10) (h : Each1 T rs) (h' : Each1 U rs') :
    Each1 (T ++ U) (rs ++ rs'.map (ERep.sh T.length)) := by
  unfold Each1
  rw [terminated_append hT]
  exact Each.append h (h'.sh T.length)

theorem each1_line {T : List Byte} {l : Nat} {k : Kind} (h : terminated T = [(0, T.length)]) (h0 : 0 < T.length) : Each1 T [⟨l, k, 0, T.length⟩] := by
  unfold Each1
  rw [h]
  exact .cons ⟨rfl, Nat.le_refl _, h0⟩ .nil

/-- The opening and the closing texts are lines. -/
theorem blocks_lines : ∀ B ∈ blocks, B.opens.getLast? = some 10 ∧ terminated B.opens = [(0, B.opens.length)] ∧
    B.closes.getLast? = some 10 ∧ terminated B.closes = [(0, B.closes.length)] := by
  decide +kernel

theorem lastStart_full {W : List Byte} (h : W = [] ∨ W.getLast? = some 10) : lastStart W = W.length := by
  rcases h with h | h
  · subst h; rfl
  · exact lineEnds_last h

theorem lines_full {L : Lexis} {W : List Byte} (h : W = [] ∨ W.getLast? = some 10) :
    L.lines W = (terminated W).map fun x => (x.1, x.2, L.lineKind W x.1 x.2) := by
  unfold Lexis.lines
  rw [lastStart_full h]
  have : L.lineKind W W.length W.length = .lblank := by unfold Lexis.lineKind; simp
  rw [this]
  simp

theorem Holds.full {B : Block} {W : List Byte} (h : B.Holds W) : W = [] ∨ W.getLast? = some 10 := by
  have := h.settled
  unfold Machine.settled at this
  rw [Bool.or_eq_true, List.isEmpty_iff, Bool.and_eq_true, beq_iff_eq] at this
  exact this.imp id And.left

theorem region_each1 {B : Block} (hB : B ∈ blocks) {W : List Byte} (hW : B.Holds W) {L : Lexis} (hL : (B.sub, L) ∈ classified) (hp : Plain W)
    (hw : L.WellFormed W) : Each1 (B.text W) (B.reports W) := by
  obtain ⟨a1, a2, a3, a4⟩ := blocks_lines B hB
  have h := C55_kinds B.sub L hL {} W hp hw
  rw [lines_full (Holds.full hW)] at h
  have hin : Each1 W ((lineReports B.sub.line.machine {} W).map fun r => (⟨B.lang, r.kind, r.s, r.e⟩ : ERep)) := by
    unfold Each1
    generalize lineReports B.sub.line.machine {} W = rs at h
    generalize terminated W = ls at h
    induction ls generalizing rs with
    | nil => cases h; exact .nil
    | cons x ls ih =>
      cases h with
      | cons g h =>
        refine .cons ?_ (ih _ h)
        obtain ⟨_, g2, g3, g4, _⟩ := g
        exact ⟨g2, g3, by dsimp only at g2 ⊢; omega⟩
  have h0 : ∀ {T : List Byte}, T.getLast? = some 10 → 0 < T.length := by
    intro T h; cases T with | nil => cases h | cons => simp
  have e1 := Each1.append (.inr a1) (each1_line (l := 0) (k := .lcode) a2 (h0 a1)) hin
  have hfull : B.opens ++ W = [] ∨ (B.opens ++ W).getLast? = some 10 := by
    right
    rcases Holds.full hW with g | g
    · rw [g, List.append_nil]; exact a1
    · rw [List.getLast?_append, g]; rfl
  have e2 := Each1.append hfull e1 (each1_line (l := 0) (k := .lcode) a4 (h0 a3))
  unfold Block.reports Block.text
  rw [List.map_map] at e2
  simp only [List.map_cons, List.map_nil, ERep.sh, Nat.zero_add, List.length_append] at e2
  rw [List.length_append, List.length_append, Nat.add_comm (B.opens.length + W.length)]
  exact e2

theorem Piece.full {P : EParser} {x : Piece} (h : x.Fits P) : x.text = [] ∨ x.text.getLast? = some 10 := by
  cases x with
  | plain T =>
    have : P.whole T = true := h
    unfold EParser.whole at this
    rw [Bool.and_eq_true, beq_iff_eq] at this
    exact .inr this.1
  | region B W =>
    right
    show (B.opens ++ W ++ B.closes).getLast? = _
    rw [List.getLast?_append, (blocks_lines B h.1).2.2.1]
    rfl

/-- In a page of complete lines and regions, the lines of which are reported one by one, each line has one callback, in order. -/
theorem C68_pages_partial (P : EParser) (hP : P ∈ embShiftLine) (l : ELeft) (xs : List Piece) (h : ∀ x ∈ xs, x.Fits P) (hr : ∀ x ∈ xs, x.Regular P) :
    Each1 (xs.map Piece.text).flatten (P.reports l (xs.map Piece.text).flatten) := by
  have e := C67_page P hP l [] xs h
  rw [List.append_nil, reports_nil, List.map_nil, List.append_nil] at e
  rw [e]
  clear e
  induction xs with
  | nil => exact .nil
  | cons x xs ih =>
    have i := ih (fun y hy => h y (List.mem_cons_of_mem _ hy)) (fun y hy => hr y (List.mem_cons_of_mem _ hy))
    have hx := h x (List.mem_cons_self ..)
    have key : Each1 x.text (x.reports P) := by
      have hr := hr x (List.mem_cons_self ..)
      cases x with
      | plain T => exact hr
      | region B W =>
        obtain ⟨L, h1, h2, h3⟩ := hr
        exact region_each1 hx.1 hx.2.2 h1 h2 h3
    have := Each1.append (Piece.full hx) key i
    rw [List.map_cons, List.flatten_cons]
    unfold pieceReports
    rw [ERep.sh_zero, Nat.zero_add]
    rwa [pieceReports_sh, Nat.add_zero] at this

instance decEach {α β : Type} {R : α → β → Prop} [∀ a b, Decidable (R a b)] : ∀ (l : List α) (r : List β), Decidable (Each R l r)
  | [], [] => .isTrue .nil
  | [], _ :: _ => .isFalse fun h => nomatch h
  | _ :: _, [] => .isFalse fun h => nomatch h
  | a :: l, b :: r =>
    match (inferInstance : Decidable (R a b)), decEach l r with
    | .isTrue h, .isTrue g => .isTrue (.cons h g)
    | .isFalse h, _ => .isFalse fun g => by cases g; contradiction
    | _, .isFalse h => .isFalse fun g => by cases g; contradiction

/-- A JSP page with a comment, a blank line and a piece of Java. -/
example : ∀ x ∈ [Piece.plain (bytes "<!-- a\n\nb -->\n<p>\n"), .region jspJava (bytes "// one\nint a = b < c ? 5 % 3 : 1;\n")],
    x.Fits Emb.Jsp.parser ∧ x.Regular Emb.Jsp.parser := by
  refine List.forall_mem_cons.mpr ⟨⟨show Emb.Jsp.parser.whole _ = true by decide +kernel, show Each OfLine _ _ by decide +kernel⟩, List.forall_mem_cons.mpr
    ⟨⟨⟨List.mem_of_getElem? (i := 6) rfl, rfl, jspJava_holds⟩, LexisTable.java_line, by simp [classified, jspJava], by decide, by decide +kernel⟩, fun _ h => nomatch h⟩⟩

/-! ### What stops a parser -/

/-- The configuration in which the parser stops inside of the text, whatever follows. -/
def Multi.stopsIn (M : Multi) (T : List Byte) : Nat → ECfg → Option ECfg
  | 0, _ => none
  | n + 1, c => if tameStep M T c then match M.step T c with | none => some c | some c' => stopsIn M T n c' else none

theorem stopsIn_spec {M : Multi} {T : List Byte} : ∀ {n : Nat} {c c' : ECfg}, M.stopsIn T n c = some c' →
    ∃ k, tameRun M T k c = true ∧ M.run T k c = c' ∧ M.step T c' = none ∧ tameStep M T c' = true
  | 0, c, c', h => by cases h
  | n + 1, c, c', h => by
    unfold Multi.stopsIn at h
    split at h
    · rename_i h1
      cases hs : M.step T c with
      | none => rw [hs] at h; cases h; exact ⟨0, rfl, rfl, hs, h1⟩
      | some c1 =>
        rw [hs] at h
        obtain ⟨k, k1, k2, k3⟩ := stopsIn_spec h
        refine ⟨k + 1, ?_, ?_, k3⟩
        · unfold tameRun; rw [h1, hs]; exact k1
        · show (match M.step T c with | none => c | some c' => M.run T k c') = c'
          rw [hs]; exact k2
    · cases h

/-- When a parser stops. -/
theorem step_none_iff {M : Multi} {buf : List Byte} {c : ECfg} : M.step buf c = none ↔ c.bad = true ∨
    (((buf[c.p]?).bind fun b => (M.mach c.m).nfa.delta c.q b.toNat (condAt buf c.p c.x.d)) = none ∧
      ((c.q.isEmpty || !(M.mach c.m).scanner) = true ∨ ((M.mach c.m).nfa.accepts c.q = none ∧ c.acc = none))) := by
  unfold Multi.step
  cases c.bad with
  | true => simp
  | false =>
    simp only [Bool.false_eq_true, if_false, false_or]
    generalize (buf[c.p]?).bind _ = o
    cases o with
    | some y =>
      refine ⟨fun h => ?_, fun h => nomatch h.1⟩
      exfalso
      dsimp only at h
      generalize M.acts _ _ _ _ = s at h
      cases hj : s.jump.isSome <;> rw [hj] at h
      · simp only [Bool.false_eq_true, if_false] at h
        cases hl : ((M.mach c.m).scanner && (M.mach c.m).nfa.isLast y.1) <;> rw [hl] at h <;> simp at h
      · simp at h
    | none =>
      simp only [true_and]
      cases hs : (c.q.isEmpty || !(M.mach c.m).scanner) with
      | true => simp
      | false =>
        unfold Multi.fallback
        dsimp only
        cases (M.mach c.m).nfa.accepts c.q with
        | some _ => simp
        | none => cases c.acc <;> simp

/-- The callbacks when a parser has stopped in `c`. -/
def ECfg.endReps (c : ECfg) (n : Nat) : List ERep :=
  let x := c.x.upd 0 (c.x.d.processLastLine n)
  pairUp x.langs x.d.out

/-- What follows the place where the parser stops does not matter, except that its length counts for the last line. -/
theorem stopped_reports {P : EParser} (hS : Shiftable P P.line) (hC : Checked P P.line false false) {T : List Byte} (hT : T.getLast? = some 10)
    {c : ECfg} (hc : P.multi.stopsIn T (efuel T.length) (einit P.line {}) = some c) (l : ELeft) (X : List Byte) :
    P.reports l (T ++ X) = c.endReps (T ++ X).length := by
  rw [reports_same P {} l]
  obtain ⟨A, hA⟩ := fresh_of_last hT
  obtain ⟨k, k1, k2, k3, k4⟩ := stopsIn_spec hc
  obtain ⟨use, hm, hE, hcr⟩ := hS
  have C : EntCerts P.multi use := fun i hi => Classical.choice (hE i hi)
  have h0 : PRel C 0 {} false (einit P.line {}) (einit P.line {}) :=
    ⟨rfl, rfl, rfl, rfl, .inl rfl, rfl, rfl, rfl, ((einit_same P.line {} {}).x).weaken (fun h => nomatch h), .inr (EIn.init C hm), fun y hy => by cases hy⟩
  obtain ⟨es1, h1⟩ := run_prefix C (T := []) (A := A) (R := X) (.inl rfl) hcr k h0 (moved_start ..) (by rw [← hA]; exact k1)
  rw [List.nil_append, ← hA, k2] at h1
  generalize hr : P.multi.run (T ++ X) k (einit P.line {}) = c' at h1
  have hp : c.p < T.length := by
    unfold tameStep at k4
    rw [Bool.and_eq_true, decide_eq_true_eq] at k4
    exact k4.1
  have hstop : P.multi.step (T ++ X) c' = none := by
    rw [step_none_iff] at k3 ⊢
    rw [h1.bad]
    cases hb : c.bad with
    | true => exact .inl rfl
    | false =>
      have hu : c.m ∈ use := by
        rcases h1.tab with g | g
        · rw [hb] at g; cases g
        · exact g.1
      right
      rcases k3 with k3 | ⟨k3, k5⟩
      · rw [hb] at k3; cases k3
      · rw [h1.m, h1.q, h1.acc]
        refine ⟨?_, k5⟩
        rw [← k3, h1.p, show c.p + ([] : List Byte).length = c.p from rfl, List.getElem?_append_left hp]
        cases hb : T[c.p]? with
        | none => rfl
        | some b0 =>
          simp only [Option.bind_some]
          have shift := fun (cc : Cond) (g : cc = .crAlone → c.p + 1 < T.length ∨ X = []) =>
            condAt_shift (T := []) (.inl rfl) T X h1.x.d (p := c.p) (.inl (Nat.le_of_lt hp)) (c := cc) g
          by_cases hp1 : c.p + 1 < T.length
          · have hcv : condAt (T ++ X) c.p c'.x.d = condAt T c.p c.x.d := by
              funext cc
              exact shift cc fun _ => .inl hp1
            rw [hcv]
          · have hA' : c.p = A.length := by rw [hA, List.length_append, List.length_singleton] at hp hp1; omega
            have : b0 = 10 := by
              rw [hA, hA', List.getElem?_append_right (Nat.le_refl _), Nat.sub_self] at hb
              simpa using hb.symm
            subst this
            apply delta_cr (hcr c.m hu) _ (by decide)
            intro cc hcc
            exact shift cc fun g => absurd g hcc
  have hex : eexec P.multi P.line {} (T ++ X) = c' := by
    obtain ⟨o, _, _, hh, _⟩ := hC.run {} (T ++ X) (fun h => nomatch h)
    unfold eexec at hh ⊢
    rw [← hr]
    exact Multi.run_unique hh (by rw [hr]; exact hstop)
  have h7 := (h1.x.weaken (es' := false) (fun g => nomatch g)).upd 0 (h1.x.d.processLastLine (T ++ X).length) (Ext.processLastLine _ _) (fun g => nomatch g)
  have h8 := h7.d.out
  have h9 := h7.langs
  unfold EParser.reports EParser.final ECfg.endReps
  rw [hex]
  dsimp only
  rw [show (T ++ X).length + ([] : List Byte).length = (T ++ X).length from rfl] at h8 h9
  rw [h8, h9]
  show pairUp (_) ([] ++ List.map (Rep.sh 0) _) = _
  rw [Rep.sh_zero]
  rfl

end Ohcount.Ragel
