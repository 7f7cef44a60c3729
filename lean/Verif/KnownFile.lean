import Verif.LibraryProps

/-!
The parsed languages of a file on disk (for C101 and C102): what is recorded for the files of C59.
-/

namespace Ohcount.LibraryProps

open Ohcount Ragel Gram Cert ParsedLanguageProps SourceFileProps

theorem each_mem {α β : Type} {R : α → β → Prop} {xs : List α} {rs : List β} (h : Each R xs rs) {r : β} (hr : r ∈ rs) :
    ∃ x ∈ xs, R x r := by
  induction h with
  | nil => cases hr
  | cons h1 _ ih =>
    rcases List.mem_cons.mp hr with rfl | hr
    · exact ⟨_, by simp, h1⟩
    · obtain ⟨x, hx, h⟩ := ih hr
      exact ⟨x, by simp [hx], h⟩

/-! ### From the file to the reports -/

theorem doParse_of (mc : Host) (before : Byte) (stem e : Bytes) (P : Parser) (L : Lexis) (disk : Disk) (text : Bytes)
    (k : Nat → Nat → Kind) (he : (e, Tables.ExtVal.lang P.lang) ∈ Tables.extensions) (hP : (P, L) ∈ classified)
    (hT : (bytes P.lang, P.name) ∈ Tables.parsers)
    (hd : disk (stem ++ Detector.bs "." ++ e) = some text)
    (h : Each ForLine (kinded text k) (lineReports P.line.machine {} text)) :
    ∃ s pls, (SourceFile.new before (stem ++ Detector.bs "." ++ e)).doParse (library mc) disk = some s ∧
      s.parsed = some pls ∧ recordAll mc.junk text []
        ((lineReports P.line.machine {} text).map fun r => (⟨P.lang, r.kind, r.s, r.e⟩ : Report)) = some pls := by
  have hbe := byExt_of before stem e P.lang he
  have hdd : (library mc).detect (SourceFile.new before (stem ++ Detector.bs "." ++ e)) disk = (some P.lang, false) := by
    simp only [library, Detector.Input.ext]
    have h2 : ∀ i : Detector.Input, i.filepath = stem ++ Detector.bs "." ++ e → i.parts = splitPath before (stem ++ Detector.bs "." ++ e) →
        Detector.detect mc.oracles mc.stack mc.before i = some (some P.lang) := by
      intro i hi1 hi2
      have hb : Detector.byExt i.ext = some (.lang P.lang) := by
        unfold Detector.Input.ext; rw [hi1, hi2]; exact hbe
      rw [Detector.detect, Detector.detectN, Detector.candidate_of_ext _ _ _ hb]
      rfl
    rw [h2 _ rfl rfl]
    simp only [SourceFile.new, hbe, Option.getD_some]
  obtain ⟨pls, e1, _⟩ := counted mc.junk P.lang text k _ h
  have hrep : ∀ (c : Option Bytes) (n : Nat), (c.getD []).take n = text → (library mc).parse P.lang c n =
      (lineReports P.line.machine {} text).map fun r => (⟨P.lang, r.kind, r.s, r.e⟩ : Report) := by
    intro c n hc
    simp only [library, parseText, Int.toNat_natCast, hc, parse_eq P L hP hT, reports]
  generalize hs0 : SourceFile.new before (stem ++ Detector.bs "." ++ e) = s0 at *
  have f1 : s0.parsed = none ∧ s0.languageDetected = false ∧ s0.contents = none ∧ s0.diskpath = none ∧ s0.filepath = stem ++ Detector.bs "." ++ e := by
    subst hs0; exact ⟨rfl, rfl, rfl, rfl, rfl⟩
  obtain ⟨g2, g3, g4, g5, g6⟩ := f1
  have hrun : ∃ s1, s0.runParser (library mc) disk = (s1, (lineReports P.line.machine {} text).map fun r => (⟨P.lang, r.kind, r.s, r.e⟩ : Report)) ∧
      s1.contents.getD [] = text := by
    unfold SourceFile.runParser SourceFile.detectLanguage
    simp only [g3, Bool.false_eq_true, if_false, hdd, has_parser mc P L hP hT, if_true]
    refine ⟨_, Prod.ext rfl ?_, ?_⟩
    · dsimp only
      rw [load_new disk text _ (by exact g4) (by exact g5) (by rw [← hd, ← g6])]
      exact hrep _ _ (by cases text <;> simp)
    · rw [load_new disk text _ (by exact g4) (by exact g5) (by rw [← hd, ← g6])]
      cases text <;> rfl
  obtain ⟨s1, r1, r2⟩ := hrun
  have hj : (library mc).junk = mc.junk := rfl
  refine ⟨{ s1 with parsed := some pls, contents := none, parses := s1.parses + 1 }, pls, ?_, rfl, e1⟩
  unfold SourceFile.doParse
  simp only [g2, r1, r2, hj, e1, Option.bind_some]

theorem known_doParse (mc : Host) (before : Byte) (disk : Disk) (path : Bytes) (lang : String) (xs : List (Nat × Nat × Kind))
    (h : Known disk path lang xs) :
    ∃ text k rs s pls, disk path = some text ∧ xs = kinded text k ∧ Each ForLine xs rs ∧
      (SourceFile.new before path).doParse (library mc) disk = some s ∧ s.parsed = some pls ∧
      recordAll mc.junk text [] (rs.map fun r => (⟨lang, r.kind, r.s, r.e⟩ : Report)) = some pls := by
  cases h with
  | lexis stem e P L text hp he hP hT hd ht hw =>
    subst hp
    have hk := C55_kinds P L hP {} text ht hw
    obtain ⟨s, pls, h1, h2, h3⟩ := doParse_of mc before stem e P L disk text _ he hP hT hd hk
    exact ⟨text, _, _, s, pls, hd, rfl, hk, h1, h2, h3⟩
  | c stem text hp hd ht hw =>
    subst hp
    have hP : (parse_c, LexisTable.c_line) ∈ classified := by simp [classified]
    have hs : stem ++ Detector.bs ".c" = stem ++ Detector.bs "." ++ bytes "c" := by simp [Detector.bs, bytes]
    rw [hs] at hd ⊢
    have hk := C39_c_lines {} text ht hw
    obtain ⟨s, pls, h1, h2, h3⟩ := doParse_of mc before stem (bytes "c") parse_c LexisTable.c_line disk text _
      (by decide +kernel) hP (by decide +kernel) hd hk
    exact ⟨text, _, _, s, pls, hd, rfl, hk, h1, h2, h3⟩

/-! ### What is recorded -/

/-- The lines of a kind of a file, without the blanks and tabs before them. -/
def kindLines (text : List Byte) (xs : List (Nat × Nat × Kind)) (k : Kind) : List (List Byte) :=
  (xs.filter fun x => x.2.2 == k).map fun x =>
    ((text.take x.2.1).drop x.1).dropWhile fun b => b == 0x20 || b == 0x09

theorem collected_eq (text : List Byte) (lang : String) (k : Kind) (hk : k ≠ .lblank) : ∀ {xs : List (Nat × Nat × Kind)} {rs : List Rep}, Each ForLine xs rs →
    ((rs.map fun r => (⟨lang, r.kind, r.s, r.e⟩ : Report)).filter
      fun r => decide (r.lang = lang) && decide (r.kind = k)).flatMap (stripped text) = (kindLines text xs k).flatten
  | [], _, .nil => rfl
  | x :: xs, r :: rs, .cons h t => by
    have ih := collected_eq text lang k hk t
    obtain ⟨h1, h2, _, _, h5⟩ := h
    unfold kindLines at ih ⊢
    simp only [List.map_cons, List.filter_cons, decide_true, Bool.true_and, h1] at ih ⊢
    by_cases hx : x.2.2 = k
    · have h6 : r.s = x.1 := h5 (by rw [h1, hx]; exact hk)
      simp only [hx, decide_true, if_true, beq_self_eq_true, List.flatMap_cons, List.map_cons, List.flatten_cons, ih, stripped,
        Int.toNat_natCast, h2, h6]
    · have h7 : (x.2.2 == k) = false := by rw [beq_eq_false_iff_ne]; exact hx
      simp only [hx, decide_false, h7, Bool.false_eq_true, if_false, ih]

/-- The parsed languages of a file: one if it has lines, with the text of its lines of code and of comment. -/
theorem known_parsed (mc : Host) (before : Byte) (disk : Disk) (path : List Byte) (lang : String) (xs : List (Nat × Nat × Kind))
    (h : Known disk path lang xs) (text : List Byte) (hd : disk path = some text) (h0 : (0 : Byte) ∉ text) :
    ∃ s pls, (SourceFile.new before path).doParse (library mc) disk = some s ∧ s.parsed = some pls ∧
      pls.map ParsedLanguage.name = (if xs = [] then [] else [lang]) ∧ ∀ pl ∈ pls, pl.name = lang ∧
        cString pl.code.mem = (kindLines text xs .lcode).flatten ∧
        cString pl.comments.mem = (kindLines text xs .lcomment).flatten ∧ pl.blanksCount = linesOf xs .lblank := by
  obtain ⟨text', k, rs, sf, pls, hd', rfl, hk, hp, hpl, hrec⟩ := known_doParse mc before disk path lang xs h
  rw [hd] at hd'; cases hd'
  obtain ⟨f1, f2⟩ := kinded_facts text k
  have hin : ∀ r ∈ rs.map (fun r => (⟨lang, r.kind, r.s, r.e⟩ : Report)), InRange text r := by
    intro y hy
    obtain ⟨z, hz, rfl⟩ := List.mem_map.mp hy
    obtain ⟨x, hx, hf⟩ := each_mem hk hz
    exact inRange_forLine lang text x z hf (f2 x hx)
  have hdis := forLine_disjoint lang hk f1
  obtain ⟨pls1, g1, g2⟩ := C56_recorded_text mc.junk text _ h0 hin hdis
  obtain ⟨pls2, g3, g4, g5⟩ := C09_every_line_counted mc.junk text _ hin hdis
  rw [hrec] at g1 g3
  cases g1; cases g3
  refine ⟨sf, pls, hp, hpl, ?_, fun pl hm => ?_⟩
  · by_cases hr : rs = []
    · subst hr
      have : kinded text k = [] := List.length_eq_zero_iff.mp hk.length
      rw [g4, this]; rfl
    · have hx : kinded text k ≠ [] := fun e => hr (List.length_eq_zero_iff.mp (by rw [← hk.length, e]; rfl))
      rw [g4, firstSeen_const lang rs hr, if_neg hx]
  · have hname : pl.name = lang := by
      have : pl.name ∈ pls.map ParsedLanguage.name := List.mem_map.mpr ⟨_, hm, rfl⟩
      rw [g4, mem_firstSeen, List.map_map] at this
      obtain ⟨_, _, h⟩ := List.mem_map.mp this
      exact h.symm
    obtain ⟨c1, c2⟩ := g2 pl hm
    obtain ⟨_, _, c3⟩ := g5 pl hm
    rw [hname] at c1 c2 c3
    rw [collected_eq text lang .lcode (by decide) hk] at c1
    rw [collected_eq text lang .lcomment (by decide) hk] at c2
    refine ⟨hname, c1, c2, ?_⟩
    rw [c3]
    exact countOf_lines lang hk _

end Ohcount.LibraryProps
