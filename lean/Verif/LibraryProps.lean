import Verif.Library
import Verif.LexisProps
import Verif.SourceFileProps

/-!
From a file on disk to its line counts (C59): detection by extension, parsing, recording and counting together.
-/

namespace Ohcount.LibraryProps

open Ohcount Ragel Gram Cert ParsedLanguageProps SourceFileProps

/-! ### Lines are disjoint and in range -/

theorem lineEnds_sorted (buf : List Byte) : (lineEnds buf).Pairwise (· < ·) := by
  unfold lineEnds
  exact List.pairwise_lt_range.sublist List.filter_sublist

theorem zip_tail : ∀ (l : List Nat) (a : Nat), (a :: l).Pairwise (· ≤ ·) →
    ((a :: l).zip l).Pairwise (fun x y => x.2 ≤ y.1) ∧ (∀ x ∈ (a :: l).zip l, a ≤ x.1 ∧ x.2 ≤ l.getLastD a ∧ x.2 ∈ l)
  | [], a, _ => by simp
  | b :: l, a, h => by
    obtain ⟨h1, h2⟩ := zip_tail l b (List.pairwise_cons.mp h).2
    have hab : a ≤ b := (List.pairwise_cons.mp h).1 b (by simp)
    have hl : (b :: l).getLastD a = l.getLastD b := by cases l <;> rfl
    have hbl : b ≤ l.getLastD b := by
      cases l with
      | nil => simp
      | cons c l =>
        refine (List.pairwise_cons.mp (List.pairwise_cons.mp h).2).1 _ ?_
        rw [List.getLastD_eq_getLast?, List.getLast?_eq_some_getLast (by simp)]
        exact List.getLast_mem _
    rw [List.zip_cons_cons, hl]
    refine ⟨List.pairwise_cons.mpr ⟨fun y hy => (h2 y hy).1, h1⟩, ?_⟩
    intro x hx
    rcases List.mem_cons.mp hx with rfl | hx
    · exact ⟨Nat.le_refl _, hbl, by simp⟩
    · obtain ⟨a1, a2, a3⟩ := h2 x hx
      exact ⟨Nat.le_trans hab a1, a2, List.mem_cons_of_mem _ a3⟩

theorem terminated_facts (buf : List Byte) : (terminated buf).Pairwise (fun x y => x.2 ≤ y.1) ∧
    ∀ x ∈ terminated buf, x.2 ≤ lastStart buf ∧ lineEnd buf x.2 = true := by
  have hs : (0 :: lineEnds buf).Pairwise (· ≤ ·) :=
    List.pairwise_cons.mpr ⟨fun _ _ => Nat.zero_le _, (lineEnds_sorted buf).imp Nat.le_of_lt⟩
  obtain ⟨h1, h2⟩ := zip_tail _ _ hs
  refine ⟨h1, fun x hx => ⟨(h2 x hx).2.1, ?_⟩⟩
  have := (h2 x hx).2.2
  unfold lineEnds at this
  exact (List.mem_filter.mp this).2

/-- Lines with kinds, in the form of `Lexis.lines` and `cLines`. -/
def kinded (buf : List Byte) (k : Nat → Nat → Kind) : List (Nat × Nat × Kind) :=
  (terminated buf).map (fun x => (x.1, x.2, k x.1 x.2)) ++
  (let z := k (lastStart buf) buf.length
   if z = .lblank then [] else [(lastStart buf, buf.length, z)])

theorem kinded_facts (buf : List Byte) (k : Nat → Nat → Kind) : (kinded buf k).Pairwise (fun x y => x.2.1 ≤ y.1) ∧
    ∀ x ∈ kinded buf k, lineEnd buf x.2.1 = true ∨ x.2.1 = buf.length := by
  obtain ⟨h1, h2⟩ := terminated_facts buf
  unfold kinded
  constructor
  · rw [List.pairwise_append]
    refine ⟨List.pairwise_map.mpr h1, ?_, ?_⟩
    · dsimp only; split <;> simp
    · intro x hx y hy
      obtain ⟨z, hz, rfl⟩ := List.mem_map.mp hx
      dsimp only at hy
      split at hy
      · cases hy
      · rw [List.mem_singleton] at hy
        subst hy
        exact (h2 z hz).1
  · intro x hx
    rcases List.mem_append.mp hx with hx | hx
    · obtain ⟨z, hz, rfl⟩ := List.mem_map.mp hx
      exact .inl (h2 z hz).2
    · dsimp only at hx
      split at hx
      · cases hx
      · rw [List.mem_singleton] at hx
        subst hx
        exact .inr rfl

theorem lineEnd_byte {buf : List Byte} {e : Nat} (h : lineEnd buf e = true) :
    ∃ p b, e = p + 1 ∧ buf[p]? = some b ∧ b ≠ 0x20 ∧ b ≠ 0x09 := by
  cases e with
  | zero => cases h
  | succ p =>
    simp only [lineEnd] at h
    cases hb : buf[p]? with
    | none => rw [hb] at h; cases h
    | some b =>
      rw [hb] at h
      refine ⟨p, b, rfl, hb, ?_, ?_⟩
      · rintro rfl; simp at h
      · rintro rfl; simp at h

theorem inRange_forLine (lang : String) (buf : List Byte) (x : Nat × Nat × Kind) (r : Rep) (h : ForLine x r)
    (hx : lineEnd buf x.2.1 = true ∨ x.2.1 = buf.length) : InRange buf ⟨lang, r.kind, r.s, r.e⟩ := by
  obtain ⟨h1, h2, h3, h4, h5⟩ := h
  have hle : r.e ≤ buf.length := by
    rcases hx with hx | hx
    · rw [h2]; exact lineEnd_le hx
    · omega
  rcases hx with hx | hx
  · apply inRange_of_nonblank
    · exact Int.natCast_nonneg _
    · dsimp only; omega
    · dsimp only; omega
    · intro _
      obtain ⟨p, b, e, hb, b1, b2⟩ := lineEnd_byte hx
      exact ⟨p, b, by dsimp only; omega, by dsimp only; omega, hb, b1, b2⟩
  · refine ⟨Int.natCast_nonneg _, by dsimp only; omega, by dsimp only; omega, fun _ => ?_⟩
    dsimp only
    simp only [Int.toNat_natCast, firstNonBlank, leadingBlanks]
    have := (List.takeWhile_sublist (l := buf.drop r.s) (fun b : Byte => b == 0x20 || b == 0x09)).length_le
    rw [List.length_drop] at this
    omega

theorem forLine_disjoint (lang : String) {xs : List (Nat × Nat × Kind)} {rs : List Rep} (h : Each ForLine xs rs)
    (hp : xs.Pairwise (fun x y => x.2.1 ≤ y.1)) :
    (rs.map fun r => (⟨lang, r.kind, r.s, r.e⟩ : Report)).Pairwise Disjoint := by
  have key : ∀ {xs : List (Nat × Nat × Kind)} {rs : List Rep}, Each ForLine xs rs → ∀ n, (∀ x ∈ xs, n ≤ x.1) → ∀ r ∈ rs, n ≤ r.s := by
    intro xs rs h
    induction h with
    | nil => intro _ _ _ hr; cases hr
    | cons h1 _ ih =>
      intro n hn r hr
      rcases List.mem_cons.mp hr with rfl | hr
      · exact Nat.le_trans (hn _ (by simp)) h1.2.2.1
      · exact ih n (fun x hx => hn x (by simp [hx])) r hr
  induction h with
  | nil => simp
  | @cons a b l r h1 h2 ih =>
    rw [List.pairwise_cons] at hp
    rw [List.map_cons, List.pairwise_cons]
    refine ⟨?_, ih hp.2⟩
    intro y hy
    obtain ⟨z, hz, rfl⟩ := List.mem_map.mp hy
    have := key h2 b.e (fun x hx => by rw [h1.2.1]; exact hp.1 x hx) z hz
    exact .inl (by dsimp only; omega)

/-! ### Counting the reports of one language -/

/-- The number of lines of a kind. -/
def linesOf (xs : List (Nat × Nat × Kind)) (k : Kind) : Nat := (xs.filter fun x => x.2.2 == k).length

/-- The line counts that are due for a file: none if it has no lines, else one entry for its language. -/
def countsOf (lang : String) (xs : List (Nat × Nat × Kind)) : LocList :=
  if xs.isEmpty then [] else [⟨lang, linesOf xs .lcode, linesOf xs .lcomment, linesOf xs .lblank, 1⟩]

theorem countOf_lines (lang : String) {xs : List (Nat × Nat × Kind)} {rs : List Rep} (h : Each ForLine xs rs) (k : Kind) :
    countOf (rs.map fun r => (⟨lang, r.kind, r.s, r.e⟩ : Report)) lang k = linesOf xs k := by
  unfold countOf linesOf
  induction h with
  | nil => rfl
  | @cons a b l r h1 _ ih =>
    rw [List.map_cons, List.filter_cons, List.filter_cons]
    have : (decide (lang = lang) && decide (b.kind = k)) = (a.2.2 == k) := by
      rw [h1.1]
      simp
      rfl
    dsimp only
    rw [this]
    split <;> simp [ih]

theorem firstSeen_const (lang : String) (rs : List Rep) (h : rs ≠ []) :
    firstSeen ((rs.map fun r => (⟨lang, r.kind, r.s, r.e⟩ : Report)).map Report.lang) = [lang] := by
  have hm : ∀ x, x ∈ firstSeen ((rs.map fun r => (⟨lang, r.kind, r.s, r.e⟩ : Report)).map Report.lang) ↔ x = lang := by
    intro x
    rw [mem_firstSeen]
    simp only [List.map_map, List.mem_map, Function.comp]
    constructor
    · rintro ⟨_, _, rfl⟩; rfl
    · rintro rfl
      cases rs with
      | nil => exact absurd rfl h
      | cons r _ => exact ⟨r, by simp, rfl⟩
  have hn := nodup_firstSeen ((rs.map fun r => (⟨lang, r.kind, r.s, r.e⟩ : Report)).map Report.lang)
  generalize firstSeen ((rs.map fun r => (⟨lang, r.kind, r.s, r.e⟩ : Report)).map Report.lang) = l at hm hn
  cases l with
  | nil => exact absurd ((hm lang).mpr rfl) (by simp)
  | cons a l =>
    have ha := (hm a).mp (by simp)
    cases l with
    | nil => rw [ha]
    | cons b l =>
      have hb := (hm b).mp (by simp)
      rw [ha, hb] at hn
      simp at hn

/-- What the parser reports, line by line, is what is counted. -/
theorem counted (junk : Byte) (lang : String) (buf : List Byte) (k : Nat → Nat → Kind) (rs : List Rep)
    (h : Each ForLine (kinded buf k) rs) :
    ∃ pls, recordAll junk buf [] (rs.map fun r => (⟨lang, r.kind, r.s, r.e⟩ : Report)) = some pls ∧
      locListOf pls = countsOf lang (kinded buf k) := by
  obtain ⟨f1, f2⟩ := kinded_facts buf k
  have hin : ∀ r ∈ rs.map (fun r => (⟨lang, r.kind, r.s, r.e⟩ : Report)), InRange buf r := by
    intro y hy
    obtain ⟨z, hz, rfl⟩ := List.mem_map.mp hy
    have : ∀ {xs : List (Nat × Nat × Kind)} {rs : List Rep}, Each ForLine xs rs → z ∈ rs → ∃ x ∈ xs, ForLine x z := by
      intro xs rs h
      induction h with
      | nil => intro h; cases h
      | cons h1 _ ih =>
        intro hz
        rcases List.mem_cons.mp hz with rfl | hz
        · exact ⟨_, by simp, h1⟩
        · obtain ⟨x, hx, h⟩ := ih hz
          exact ⟨x, by simp [hx], h⟩
    obtain ⟨x, hx, hf⟩ := this h hz
    exact inRange_forLine lang buf x z hf (f2 x hx)
  obtain ⟨pls, e1, e2, _⟩ := C10_loc_list junk buf _ hin (forLine_disjoint lang h f1)
  refine ⟨pls, e1, ?_⟩
  rw [e2]
  unfold countsOf
  by_cases hr : rs = []
  · subst hr
    have : kinded buf k = [] := by
      have := h.length
      exact List.length_eq_zero_iff.mp this
    rw [this]; rfl
  · have hx : kinded buf k ≠ [] := by
      intro e
      have := h.length
      rw [e] at this
      exact hr (List.length_eq_zero_iff.mp this.symm)
    rw [firstSeen_const lang rs hr]
    cases hk : kinded buf k with
    | nil => exact absurd hk hx
    | cons a l =>
      rw [← hk, List.map_singleton, countOf_lines lang h, countOf_lines lang h, countOf_lines lang h]
      simp [hk]

/-! ### Finding the parser -/

theorem parsers_names : (parsers.map (·.name)).Nodup := by decide +kernel

theorem find_parser (P : Parser) (h : P ∈ parsers) : parsers.find? (fun Q => Q.name == P.name) = some P := by
  have : ∀ (l : List Parser), (l.map (·.name)).Nodup → P ∈ l → l.find? (fun Q => Q.name == P.name) = some P := by
    intro l
    induction l with
    | nil => intro _ h; cases h
    | cons a l ih =>
      intro hn hm
      rw [List.map_cons, List.nodup_cons] at hn
      rw [List.find?_cons]
      rcases List.mem_cons.mp hm with rfl | hm
      · simp
      · have : (a.name == P.name) = false := by
          rw [beq_eq_false_iff_ne]
          intro e
          exact hn.1 (e ▸ List.mem_map.mpr ⟨P, hm, rfl⟩)
        rw [this]
        exact ih hn.2 hm
  exact this parsers parsers_names h

theorem parser_key : ∀ x ∈ classified, (bytes x.1.lang, x.1.name) ∈ Tables.parsers → (Tables.parsers.find? fun y => y.1 == bytes x.1.lang).map (·.2) = some x.1.name := by
  decide +kernel

/-- A classified parser that the table of parsers has is the one of its language. -/
theorem parse_eq (P : Parser) (L : Lexis) (h : (P, L) ∈ classified) (ht : (bytes P.lang, P.name) ∈ Tables.parsers) (l : Leftover) (buf : List Byte) :
    ohcountParse P.lang l buf = some (reports P.lang P.line.machine l buf) := by
  have hk := parser_key _ h ht
  dsimp only at hk
  unfold ohcountParse
  cases hf : Tables.parsers.find? fun x => x.1 == bytes P.lang with
  | none => rw [hf] at hk; cases hk
  | some x =>
    rw [hf] at hk
    simp only [Option.map_some, Option.some.injEq] at hk
    simp only [hk, find_parser P (classified_sub _ h)]

theorem has_parser (mc : Host) (P : Parser) (L : Lexis) (h : (P, L) ∈ classified) (ht : (bytes P.lang, P.name) ∈ Tables.parsers) :
    (library mc).hasParser P.lang = true := by
  have hk := parser_key _ h ht
  dsimp only at hk
  show (Tables.parsers.any fun x => x.1 == bytes P.lang) = true
  cases hf : Tables.parsers.find? fun x => x.1 == bytes P.lang with
  | none => rw [hf] at hk; cases hk
  | some x =>
    have := List.find?_some hf
    exact List.any_eq_true.mpr ⟨x, List.mem_of_find?_eq_some hf, this⟩

/-! ### C59 -/

/-- The file has an extension that stands for a language, its text is `text`, and `xs` are the lines of the text with
their kinds: by the specification of C39 for C, and of C55 for the other languages. -/
inductive Known (disk : Disk) (path : Bytes) : String → List (Nat × Nat × Kind) → Prop
  | lexis (stem e : Bytes) (P : Parser) (L : Lexis) (text : Bytes) (hp : path = stem ++ Detector.bs "." ++ e)
      (he : (e, Tables.ExtVal.lang P.lang) ∈ Tables.extensions) (hP : (P, L) ∈ classified)
      (hT : (bytes P.lang, P.name) ∈ Tables.parsers) (hd : disk path = some text) (ht : Plain text) (hw : L.WellFormed text) : Known disk path P.lang (L.lines text)
  | c (stem : Bytes) (text : Bytes) (hp : path = stem ++ Detector.bs ".c")
      (hd : disk path = some text) (ht : Plain text) (hw : CSpec.Correct text) : Known disk path "c" (cLines text)

theorem byExt_of (before : Byte) (stem e : Bytes) (l : String) (he : (e, Tables.ExtVal.lang l) ∈ Tables.extensions) :
    Detector.byExt ((stem ++ Detector.bs "." ++ e).drop (splitPath before (stem ++ Detector.bs "." ++ e)).ext) = some (.lang l) := by
  have hp : Detector.plain e := Detector.C27_all_plain _ he
  have := Detector.ext_source before stem e hp none none none
  rw [show stem ++ Detector.bs "." ++ e = stem ++ 46 :: e by simp [Detector.bs]]
  rw [show (stem ++ 46 :: e).drop (splitPath before (stem ++ 46 :: e)).ext = e from this]
  simp only [Detector.byExt, Detector.fromExt_mem he]

theorem load_new (disk : Disk) (text : Bytes) (x : SourceFile) (h1 : x.contents = none) (h2 : x.diskpath = none)
    (hd : disk x.filepath = some text) : SourceFile.sizeOf disk (SourceFile.loadContents disk x) =
      { x with contents := if text.isEmpty then none else some text, size := (text.length : Nat) } := by
  have : SourceFile.loadContents disk x = { x with contents := if text.isEmpty then none else some text, size := (text.length : Nat) } := by
    unfold SourceFile.loadContents
    rw [h1]
    dsimp only
    rw [h2, Option.getD_none, hd]
    cases text <;> rfl
  rw [this]
  unfold SourceFile.sizeOf
  rw [if_neg (by dsimp only; omega)]

/-- The steps from a new source file to its counts. -/
theorem computeLoc_of (mc : Host) (before : Byte) (stem e : Bytes) (P : Parser) (L : Lexis) (disk : Disk) (text : Bytes)
    (k : Nat → Nat → Kind) (he : (e, Tables.ExtVal.lang P.lang) ∈ Tables.extensions) (hP : (P, L) ∈ classified)
    (hT : (bytes P.lang, P.name) ∈ Tables.parsers)
    (hd : disk (stem ++ Detector.bs "." ++ e) = some text)
    (h : Each ForLine (kinded text k) (lineReports P.line.machine {} text)) :
    ∃ s, (SourceFile.new before (stem ++ Detector.bs "." ++ e)).computeLoc (library mc) disk = some s ∧
      s.locList = some (countsOf P.lang (kinded text k)) := by
  have hbe := byExt_of before stem e P.lang he
  have hdet : ∀ c, (library mc).detect (SourceFile.new before (stem ++ Detector.bs "." ++ e)) disk = c → c = (some P.lang, false) := by
    intro c hc
    have h1 : (library mc).detect (SourceFile.new before (stem ++ Detector.bs "." ++ e)) disk = (some P.lang, false) := by
      simp only [library, Detector.Input.ext]
      have h2 : ∀ i : Detector.Input, i.filepath = stem ++ Detector.bs "." ++ e → i.parts = splitPath before (stem ++ Detector.bs "." ++ e) →
          Detector.detect mc.oracles mc.stack mc.before i = some (some P.lang) := by
        intro i hi1 hi2
        have hb : Detector.byExt i.ext = some (.lang P.lang) := by
          unfold Detector.Input.ext; rw [hi1, hi2]; exact hbe
        rw [Detector.detect, Detector.detectN, Detector.candidate_of_ext _ _ _ hb]
        rfl
      rw [h2 _ rfl rfl]
      simp only [SourceFile.new, hbe, Option.getD_some]
    rw [← hc, h1]
  obtain ⟨pls, e1, e2⟩ := counted mc.junk P.lang text k _ h
  have hrep : ∀ (c : Option Bytes) (n : Nat), (c.getD []).take n = text → (library mc).parse P.lang c n =
      (lineReports P.line.machine {} text).map fun r => (⟨P.lang, r.kind, r.s, r.e⟩ : Report) := by
    intro c n hc
    simp only [library, parseText, Int.toNat_natCast, hc, parse_eq P L hP hT, reports]
  generalize hs0 : SourceFile.new before (stem ++ Detector.bs "." ++ e) = s0 at *
  have hdd := hdet _ rfl
  have f1 : s0.locList = none ∧ s0.parsed = none ∧ s0.languageDetected = false ∧ s0.contents = none ∧ s0.diskpath = none ∧ s0.filepath = stem ++ Detector.bs "." ++ e := by
    subst hs0; exact ⟨rfl, rfl, rfl, rfl, rfl, rfl⟩
  obtain ⟨g1, g2, g3, g4, g5, g6⟩ := f1
  have hrun : ∃ s1, s0.runParser (library mc) disk = (s1, (lineReports P.line.machine {} text).map fun r => (⟨P.lang, r.kind, r.s, r.e⟩ : Report)) ∧
      s1.contents.getD [] = text ∧ s1.locList = none := by
    unfold SourceFile.runParser SourceFile.detectLanguage
    simp only [g3, Bool.false_eq_true, if_false, hdd, has_parser mc P L hP hT, if_true]
    refine ⟨_, Prod.ext rfl ?_, ?_, ?_⟩
    · dsimp only
      rw [load_new disk text _ (by exact g4) (by exact g5) (by rw [← hd, ← g6])]
      exact hrep _ _ (by cases text <;> simp)
    · rw [load_new disk text _ (by exact g4) (by exact g5) (by rw [← hd, ← g6])]
      cases text <;> rfl
    · rw [load_new disk text _ (by exact g4) (by exact g5) (by rw [← hd, ← g6])]
      exact g1
  obtain ⟨s1, r1, r2, r3⟩ := hrun
  have hj : (library mc).junk = mc.junk := rfl
  refine ⟨{ { s1 with parsed := some pls, contents := none, parses := s1.parses + 1 } with locList := some (locListOf pls) }, ?_, by rw [← e2]⟩
  unfold SourceFile.computeLoc SourceFile.doParse
  simp only [g1, g2, r1, r2, hj, e1, Option.bind_some, Option.getD_some]

/-- The counts of a new source file for a known file. -/
theorem known_computeLoc (mc : Host) (before : Byte) (disk : Disk) (path : Bytes) (lang : String) (xs : List (Nat × Nat × Kind))
    (h : Known disk path lang xs) :
    ∃ s, (SourceFile.new before path).computeLoc (library mc) disk = some s ∧ s.locList = some (countsOf lang xs) := by
  cases h with
  | lexis stem e P L text hp he hP hT hd ht hw =>
    subst hp
    exact computeLoc_of mc before stem e P L disk text _ he hP hT hd (C55_kinds P L hP {} text ht hw)
  | c stem text hp hd ht hw =>
    subst hp
    have hP : (parse_c, LexisTable.c_line) ∈ classified := by simp [classified]
    have hs : stem ++ Detector.bs ".c" = stem ++ Detector.bs "." ++ bytes "c" := by simp [Detector.bs, bytes]
    rw [hs] at hd ⊢
    exact computeLoc_of mc before stem (bytes "c") parse_c LexisTable.c_line disk text _ (by decide +kernel) hP (by decide +kernel) hd
      (C39_c_lines {} text ht hw)

/-- C59: `ohcount_sourcefile_get_loc_list` of a new source file for a known file returns the numbers of its code, comment and
blank lines, for its language. -/
theorem C59_file (mc : Host) (before : Byte) (disk : Disk) (path : Bytes) (lang : String) (xs : List (Nat × Nat × Kind))
    (h : Known disk path lang xs) :
    ∃ w, step (library mc) ⟨SourceFile.new before path, disk⟩ .getLoc = some (w, .loc (countsOf lang xs)) := by
  obtain ⟨s, h1, h2⟩ := known_computeLoc mc before disk path lang xs h
  refine ⟨⟨s, disk⟩, ?_⟩
  simp only [step, h1, Option.bind_some, h2, Option.getD_some]

open LocProps in
/-- C59: for a directory in which all files are known, the summary shows for each language the sums over its files. -/
theorem C59_tree (mc : Host) (before : Byte) (disk : Disk) (dir : Bytes) (n : Node)
    (want : Bytes → String × List (Nat × Nat × Kind)) (h : ∀ p ∈ addDirectory dir n, Known disk p (want p).1 (want p).2) :
    ∃ T, analyzeLanguages (library mc) disk (listAddDirectory before [] dir n) = some T ∧ ∀ lang,
      let files := (addDirectory dir n).filter fun p => (want p).1 == lang
      let total (k : Kind) : Int := (files.map fun p => (linesOf (want p).2 k : Int)).sum
      (shown T lang).code = total .lcode ∧ (shown T lang).comments = total .lcomment ∧ (shown T lang).blanks = total .lblank ∧
      (shown T lang).filecount = (files.filter fun p => !(want p).2.isEmpty).length := by
  have hnew : listAddDirectory before [] dir n = (addDirectory dir n).map (SourceFile.new before) := (C15_appends before [] dir n).2
  rw [hnew]
  have hex : ∀ (ps : List Bytes) (acc : LocList), (∀ p ∈ ps, Known disk p (want p).1 (want p).2) →
      ∃ T, analyzeLoop (library mc) disk acc (ps.map (SourceFile.new before)) = some T := by
    intro ps
    induction ps with
    | nil => intro acc _; exact ⟨acc, rfl⟩
    | cons p ps ih =>
      intro acc hk
      obtain ⟨s, h1, _⟩ := known_computeLoc mc before disk p _ _ (hk p (by simp))
      obtain ⟨T, hT⟩ := ih (acc.addLocList (s.locList.getD [])) (fun q hq => hk q (by simp [hq]))
      exact ⟨T, by simp only [List.map_cons, analyzeLoop, h1, Option.bind_some, hT]⟩
  obtain ⟨T, hT⟩ := hex _ [] h
  refine ⟨T, hT, fun lang => ?_⟩
  have hr : ∀ s ∈ (addDirectory dir n).map (SourceFile.new before), Reachable (library mc) s := by
    intro s hs
    obtain ⟨p, _, rfl⟩ := List.mem_map.mp hs
    exact ⟨before, p, fun _ => none, [], _, _, rfl, rfl⟩
  obtain ⟨c1, c2, c3, c4⟩ := C16_sum_over_files (library mc) disk _ T hr hT lang
  have hf : ∀ p ∈ addDirectory dir n, fileCounts (library mc) disk (SourceFile.new before p) = countsOf (want p).1 (want p).2 := by
    intro p hp
    obtain ⟨s, h1, h2⟩ := known_computeLoc mc before disk p _ _ (h p hp)
    simp [fileCounts, h1, h2]
  have hsum : ∀ (f : Counts → Int) (k : Kind) (ps : List Bytes), (∀ p ∈ ps, fileCounts (library mc) disk (SourceFile.new before p) = countsOf (want p).1 (want p).2) →
      (∀ (a : String) (xs : List (Nat × Nat × Kind)), f (shown (countsOf a xs) lang) = if a == lang then (linesOf xs k : Int) else 0) →
      ((ps.map (SourceFile.new before)).map fun s => f (shown (fileCounts (library mc) disk s) lang)).sum =
        ((ps.filter fun p => (want p).1 == lang).map fun p => (linesOf (want p).2 k : Int)).sum := by
    intro f k ps hps hk
    induction ps with
    | nil => rfl
    | cons p ps ih =>
      rw [List.map_cons, List.map_cons, List.sum_cons, ih (fun q hq => hps q (by simp [hq])), hps p (by simp), hk, List.filter_cons]
      split <;> simp
  have hcase : ∀ (a : String) (xs : List (Nat × Nat × Kind)), shown (countsOf a xs) lang =
      if a == lang then ⟨linesOf xs .lcode, linesOf xs .lcomment, linesOf xs .lblank, if xs.isEmpty then 0 else 1⟩ else ⟨0, 0, 0, 0⟩ := by
    intro a xs
    unfold countsOf
    cases xs with
    | nil => cases a == lang <;> rfl
    | cons x xs =>
      simp only [List.isEmpty_cons, Bool.false_eq_true, if_false, shown, LocList.getLoc]
      by_cases ha : a = lang
      · simp [ha, Counts.ofLoc]
      · simp [ha]
  refine ⟨?_, ?_, ?_, ?_⟩
  · rw [c1]; exact hsum Counts.code .lcode _ hf (fun a xs => by rw [hcase]; split <;> rfl)
  · rw [c2]; exact hsum Counts.comments .lcomment _ hf (fun a xs => by rw [hcase]; split <;> rfl)
  · rw [c3]; exact hsum Counts.blanks .lblank _ hf (fun a xs => by rw [hcase]; split <;> rfl)
  · rw [c4, List.filter_filter]
    generalize addDirectory dir n = ps at hf
    congr 1
    induction ps with
    | nil => rfl
    | cons p ps ih =>
      have := ih (fun q hq => hf q (by simp [hq]))
      rw [List.map_cons, List.filter_cons, List.filter_cons, hf p (by simp)]
      have e : ((countsOf (want p).1 (want p).2).getLoc lang).isSome = (!(want p).2.isEmpty && (want p).1 == lang) := by
        unfold countsOf
        cases hw : (want p).2 with
        | nil => rfl
        | cons x xs =>
          simp only [List.isEmpty_cons, Bool.false_eq_true, if_false, LocList.getLoc, Bool.not_false, Bool.true_and]
          by_cases ha : (want p).1 = lang
          · simp [ha]
          · simp [ha]
      rw [e]
      split <;> simp [this]

/-- A host for the examples. -/
def plainHost : Host := ⟨Detector.mute, ⟨fun _ _ => none, fun _ _ => false⟩, .strict, 0, 0, (0, 0)⟩

/-- The hypotheses are met by a directory with a Java file and a C file. -/
example :
    let disk : Disk := fun p => if p = bytes "d/A.java" then some (bytes "class A { // a\n\n}\n") else if p = bytes "d/x.c" then some (bytes "/* b\n */\nint x;\n") else none
    let tree : Node := .dir true [(bytes "A.java", .reg), (bytes "x.c", .reg)]
    addDirectory (bytes "d") tree = [bytes "d/A.java", bytes "d/x.c"] ∧
    Known disk (bytes "d/A.java") "java" [(0, 15, .lcode), (15, 16, .lblank), (16, 18, .lcode)] ∧
    Known disk (bytes "d/x.c") "c" [(0, 5, .lcomment), (5, 9, .lcomment), (9, 16, .lcode)] ∧
    countsOf "java" [(0, 15, .lcode), (15, 16, .lblank), (16, 18, .lcode)] = [⟨"java", 2, 0, 1, 1⟩] := by
  refine ⟨by decide +kernel, ?_, ?_, by decide +kernel⟩
  · have := Known.lexis (disk := fun p => if p = bytes "d/A.java" then some (bytes "class A { // a\n\n}\n") else if p = bytes "d/x.c" then some (bytes "/* b\n */\nint x;\n") else none)
      (path := bytes "d/A.java") (bytes "d/A") (bytes "java") parse_java LexisTable.java_line (bytes "class A { // a\n\n}\n")
      (by decide +kernel) (by decide +kernel) (by simp [classified]) (by decide +kernel) (by decide +kernel) (by decide) (by decide +kernel)
    rw [show LexisTable.java_line.lines (bytes "class A { // a\n\n}\n") = [(0, 15, .lcode), (15, 16, .lblank), (16, 18, .lcode)] by decide +kernel] at this
    exact this
  · have := Known.c (disk := fun p => if p = bytes "d/A.java" then some (bytes "class A { // a\n\n}\n") else if p = bytes "d/x.c" then some (bytes "/* b\n */\nint x;\n") else none)
      (path := bytes "d/x.c") (bytes "d/x") (bytes "/* b\n */\nint x;\n") (by decide +kernel) (by decide +kernel) (by decide) (by decide +kernel)
    rw [show cLines (bytes "/* b\n */\nint x;\n") = [(0, 5, .lcomment), (5, 9, .lcomment), (9, 16, .lcode)] by decide +kernel] at this
    exact this

end Ohcount.LibraryProps
