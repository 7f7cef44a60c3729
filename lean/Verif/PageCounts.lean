import Verif.Robust
import Verif.EmbedLines

/-!
C70: from pages, and from files of languages that are read line by line, to line counts.
-/

namespace Ohcount.PageCounts
open Ohcount Ohcount.Ragel Ohcount.ParsedLanguageProps Ohcount.SourceFileProps Ohcount.Gram Ohcount.Cert Ohcount.LibraryProps Ohcount.Robust
open Ohcount.LocProps (shown Counts)

/-! ### The counts that are due -/

/-- How many lines have the language and the kind. -/
def tally (ks : List (String × Kind)) (lang : String) (k : Kind) : Nat := ks.countP fun x => x.1 == lang && x.2 == k

/-- The line counts that are due for a file whose lines have these languages and kinds: an entry for each language, in the order in
which they are first seen. -/
def due (ks : List (String × Kind)) : LocList :=
  (firstSeen (ks.map (·.1))).map fun lang => ⟨lang, tally ks lang .lcode, tally ks lang .lcomment, tally ks lang .lblank, 1⟩

/-- The language and the kind of a callback. -/
def tag (r : Report) : String × Kind := (r.lang, r.kind)

theorem countOf_tally (rs : List Report) (lang : String) (k : Kind) : countOf rs lang k = tally (rs.map tag) lang k := by
  unfold countOf tally
  rw [List.countP_map, List.countP_eq_length_filter]
  rfl

theorem due_of (rs : List Report) : (firstSeen (rs.map Report.lang)).map (fun lang =>
    (⟨lang, countOf rs lang .lcode, countOf rs lang .lcomment, countOf rs lang .lblank, 1⟩ : Loc)) = due (rs.map tag) := by
  unfold due
  rw [List.map_map, show ((·.1) ∘ tag : Report → String) = Report.lang from rfl]
  apply List.map_congr_left
  intro lang _
  rw [countOf_tally, countOf_tally, countOf_tally]

/-- The steps from a new source file to its counts, for any language that is found by the extension. -/
theorem computeLoc_text (mc : Host) (before : Byte) (stem e : Bytes) (lang : String) (disk : Disk) (text : Bytes)
    (he : (e, Tables.ExtVal.lang lang) ∈ Tables.extensions) (hp : (library mc).hasParser lang = true)
    (hd : disk (stem ++ Detector.bs "." ++ e) = some text)
    (hin : ∀ r ∈ parseText lang text, InRange text r) (hdj : (parseText lang text).Pairwise Disjoint) :
    ∃ s, (SourceFile.new before (stem ++ Detector.bs "." ++ e)).computeLoc (library mc) disk = some s ∧
      s.locList = some (due ((parseText lang text).map tag)) := by
  have hbe := byExt_of before stem e lang he
  have hdet : (library mc).detect (SourceFile.new before (stem ++ Detector.bs "." ++ e)) disk = (some lang, false) := by
    simp only [library, Detector.Input.ext]
    have h2 : ∀ i : Detector.Input, i.filepath = stem ++ Detector.bs "." ++ e → i.parts = splitPath before (stem ++ Detector.bs "." ++ e) →
        Detector.detect mc.oracles mc.stack mc.before i = some (some lang) := by
      intro i hi1 hi2
      have hb : Detector.byExt i.ext = some (.lang lang) := by
        unfold Detector.Input.ext; rw [hi1, hi2]; exact hbe
      rw [Detector.detect, Detector.detectN, Detector.candidate_of_ext _ _ _ hb]
      rfl
    rw [h2 _ rfl rfl]
    simp only [SourceFile.new, hbe, Option.getD_some]
  obtain ⟨pls, e1, e2, _⟩ := C10_loc_list mc.junk text _ hin hdj
  rw [due_of] at e2
  have hrep : ∀ (c : Option Bytes) (n : Nat), (c.getD []).take n = text → (library mc).parse lang c n = parseText lang text := by
    intro c n hc
    simp only [library, Int.toNat_natCast, hc]
  generalize hs0 : SourceFile.new before (stem ++ Detector.bs "." ++ e) = s0 at *
  have f1 : s0.locList = none ∧ s0.parsed = none ∧ s0.languageDetected = false ∧ s0.contents = none ∧ s0.diskpath = none ∧ s0.filepath = stem ++ Detector.bs "." ++ e := by
    subst hs0; exact ⟨rfl, rfl, rfl, rfl, rfl, rfl⟩
  obtain ⟨g1, g2, g3, g4, g5, g6⟩ := f1
  have hrun : ∃ s1, s0.runParser (library mc) disk = (s1, parseText lang text) ∧ s1.contents.getD [] = text ∧ s1.locList = none := by
    unfold SourceFile.runParser SourceFile.detectLanguage
    simp only [g3, Bool.false_eq_true, if_false, hdet, hp, if_true]
    refine ⟨_, Prod.ext rfl ?_, ?_, ?_⟩
    · dsimp only
      rw [load_new disk text _ (by exact g4) (by exact g5) (by rw [← hd, ← g6])]
      exact hrep _ _ (by cases text <;> simp)
    · rw [load_new disk text _ (by exact g4) (by exact g5) (by rw [← hd, ← g6])]
      cases text <;> rfl
    · rw [load_new disk text _ (by exact g4) (by exact g5) (by rw [← hd, ← g6])]
      exact g1
  obtain ⟨s1, r1, r2, r3⟩ := hrun
  have hj : (library mc).junk = mc.junk := rfl
  refine ⟨{ { s1 with parsed := some pls, contents := none, parses := s1.parses + 1 } with locList := some (locListOf pls) }, ?_, by rw [← e2]⟩
  unfold SourceFile.computeLoc SourceFile.doParse
  simp only [g1, g2, r1, r2, hj, e1, Option.bind_some, Option.getD_some]

/-! ### Callbacks of different lines do not overlap -/

theorem Each.disjoint {β : Type} {R : Nat × Nat → β → Prop} {f : β → Report}
    (hR : ∀ x r, R x r → (x.1 : Int) ≤ (f r).s ∧ (f r).e = (x.2 : Int)) :
    ∀ {xs : List (Nat × Nat)} {rs : List β}, Each R xs rs → xs.Pairwise (fun x y => x.2 ≤ y.1) → (rs.map f).Pairwise Disjoint := by
  have key : ∀ {xs : List (Nat × Nat)} {rs : List β}, Each R xs rs → ∀ n : Nat, (∀ x ∈ xs, n ≤ x.1) → ∀ r ∈ rs, (n : Int) ≤ (f r).s := by
    intro xs rs h
    induction h with
    | nil => intro _ _ _ hr; cases hr
    | cons h1 _ ih =>
      intro n hn r hr
      rcases List.mem_cons.mp hr with rfl | hr
      · have := hn _ (List.mem_cons_self ..)
        have := (hR _ _ h1).1
        omega
      · exact ih n (fun x hx => hn x (by simp [hx])) r hr
  intro xs rs h
  induction h with
  | nil => intro _; simp
  | @cons a b l r h1 h2 ih =>
    intro hp
    rw [List.pairwise_cons] at hp
    rw [List.map_cons, List.pairwise_cons]
    refine ⟨?_, ih hp.2⟩
    intro y hy
    obtain ⟨z, hz, rfl⟩ := List.mem_map.mp hy
    have k := key h2 a.2 hp.1 z hz
    have := (hR _ _ h1).2
    exact .inl (by omega)

/-! ### Pages -/

theorem emb_names : ∀ P ∈ embParsers, parsers.find? (fun Q => Q.name == P.name) = none := by decide +kernel

/-- A language has either a parser with embedded languages or one without. -/
theorem parseText_emb {lang : String} {P : EParser} (h : embParserOf lang = some P) (text : Bytes) : parseText lang text = P.callbacks {} text := by
  have hm := embParserOf_mem h
  have h0 : ohcountParse lang {} text = none := by
    have h' := h
    unfold embParserOf at h'
    unfold ohcountParse
    split at h'
    · cases h'
    · rename_i x hx
      have e2 : P.name = x.2 := by simpa using List.find?_some h'
      rw [hx]
      dsimp only
      rw [← e2, emb_names P hm]
  unfold parseText
  rw [h0]
  dsimp only
  rw [h]

theorem has_emb (mc : Host) {lang : String} {P : EParser} (h : embParserOf lang = some P) : (library mc).hasParser lang = true := by
  unfold embParserOf at h
  split at h
  · cases h
  · rename_i x hx
    have := List.find?_some hx
    exact List.any_eq_true.mpr ⟨x, List.mem_of_find?_eq_some hx, this⟩

/-- A piece of a page that `P` parses, and the languages and kinds of its lines.  A region (C67) has a line of code of the page, the
lines of the text inside, with the kinds of the specification of the language (C55), and another line of code of the page.  The lines
of the page itself have the languages and kinds that the parser reports for the piece alone; each has to have one callback, and
none computed from a NULL pointer (C64). -/
inductive Has (P : EParser) : Piece → List (String × Kind) → Prop
  | plain (T : Bytes) (hw : P.whole T = true) (h1 : Each1 T (P.reports {} T)) (hu : (P.final P.multi {} T).d.ub = false) :
      Has P (.plain T) ((P.reports {} T).map fun r => (P.langs.getD r.lang "", r.kind))
  | region (B : Block) (W : Bytes) (L : Lexis) (hB : B ∈ blocks) (hP : B.page = P) (hL : (B.sub, L) ∈ classified) (hW : B.Holds W)
      (hp : Plain W) (hw : L.WellFormed W) :
      Has P (.region B W) ((P.langs.getD 0 "", .lcode) :: ((L.lines W).map fun x => (B.sub.lang, x.2.2)) ++ [(P.langs.getD 0 "", .lcode)])

theorem Has.fits {P : EParser} {x : Piece} {ks : List (String × Kind)} (h : Has P x ks) : x.Fits P := by
  cases h with
  | plain T hw => exact hw
  | region B W L hB hP hL hW => exact ⟨hB, hP, hW⟩

theorem Has.regular {P : EParser} {x : Piece} {ks : List (String × Kind)} (h : Has P x ks) : x.Regular P := by
  cases h with
  | plain T _ h1 => exact h1
  | region B W L hB hP hL hW hp hw => exact ⟨L, hL, hp, hw⟩

theorem blocks_lang : ∀ B ∈ blocks, B.page.langs.getD B.lang "" = B.sub.lang := by decide +kernel

theorem Has.kinds {P : EParser} {x : Piece} {ks : List (String × Kind)} (h : Has P x ks) :
    (x.reports P).map (fun r => (P.langs.getD r.lang "", r.kind)) = ks := by
  cases h with
  | plain T _ h1 => rfl
  | region B W L hB hP hL hW hp hw =>
    subst hP
    have k := C67_kinds B L hB hL {} W hW hp hw
    have h := C67_region B hB {} {} W hW []
    rw [List.append_nil, reports_nil, List.map_nil, List.append_nil] at h
    rw [h] at k
    have := congrArg (List.map fun (x : Nat × Kind) => (B.page.langs.getD x.1 "", x.2)) k
    rw [List.map_map] at this
    refine Eq.trans this ?_
    rw [List.map_append, List.map_cons, List.map_map]
    congr 2
    apply List.map_congr_left
    intro x _
    show (B.page.langs.getD B.lang "", x.2.2) = _
    rw [blocks_lang B hB]

/-- No piece adds a callback computed from a NULL pointer. -/
theorem page_ub (P : EParser) (hP : P ∈ embShiftLine) : ∀ xs : List (Piece × List (String × Kind)), (∀ x ∈ xs, Has P x.1 x.2) →
    (P.final P.multi {} (xs.map fun x => x.1.text).flatten).d.ub = false
  | [], _ => by
    have h : ∀ P ∈ embShiftLine, (P.final P.multi {} []).d.ub = false := by decide +kernel
    exact h P hP
  | (x, ks) :: xs, h => by
    have ih := page_ub P hP xs fun y hy => h y (List.mem_cons_of_mem _ hy)
    have hx := h (x, ks) (List.mem_cons_self ..)
    have hS := embShiftLineAll _ hP
    have hC := embLineAll _ (embShiftLine_parsers _ hP)
    rw [List.map_cons, List.flatten_cons]
    dsimp only at hx ⊢
    cases hx with
    | plain T hw h1 hu =>
      rw [show Piece.text (.plain T) = T from rfl, (Lines.reports hS hC (Lines.of_whole hS hC hw {}) {} {} _).2, hu, ih]
      rfl
    | region B W L hB hP' hL hW hp hw =>
      subst hP'
      rw [show Piece.text (.region B W) = B.text W from rfl, (Lines.reports hS hC (Block.lines hB hW) {} {} _).2, ih]
      rfl

theorem pieces_kinds (P : EParser) : ∀ (xs : List (Piece × List (String × Kind))) (k : Nat), (∀ x ∈ xs, Has P x.1 x.2) →
    (pieceReports P k (xs.map (·.1))).map (fun r => (P.langs.getD r.lang "", r.kind)) = xs.flatMap (·.2)
  | [], _, _ => rfl
  | (x, ks) :: xs, k, h => by
    have ih := pieces_kinds P xs (k + x.text.length) fun y hy => h y (List.mem_cons_of_mem _ hy)
    have hx := (h (x, ks) (List.mem_cons_self ..)).kinds
    rw [List.map_cons, List.flatMap_cons]
    unfold pieceReports
    rw [List.map_append, ih, List.map_map]
    congr 1

/-! ### C70 -/

/-- The file has an extension that stands for a language, and `ks` are the languages and kinds of its lines: a file known from
C59, or a page that consists of pieces. -/
inductive Lined (disk : Disk) (path : Bytes) : List (String × Kind) → Prop
  | known (lang : String) (xs : List (Nat × Nat × Kind)) (h : Known disk path lang xs) : Lined disk path (xs.map fun x => (lang, x.2.2))
  | page (stem e : Bytes) (lang : String) (P : EParser) (xs : List (Piece × List (String × Kind))) (hp : path = stem ++ Detector.bs "." ++ e)
      (he : (e, Tables.ExtVal.lang lang) ∈ Tables.extensions) (hl : embParserOf lang = some P) (hP : P ∈ embShiftLine)
      (hd : disk path = some (xs.map fun x => x.1.text).flatten) (hx : ∀ x ∈ xs, Has P x.1 x.2) : Lined disk path (xs.flatMap (·.2))

theorem due_known (lang : String) (xs : List (Nat × Nat × Kind)) : countsOf lang xs = due (xs.map fun x => (lang, x.2.2)) := by
  have h : ∀ k, (linesOf xs k) = tally (xs.map fun x => (lang, x.2.2)) lang k := by
    intro k
    unfold linesOf tally
    rw [List.countP_map, List.countP_eq_length_filter]
    congr 1
    apply List.filter_congr
    intro x _
    simp
  unfold countsOf due
  cases xs with
  | nil => rfl
  | cons x xs =>
    have hf : firstSeen (((x :: xs).map fun x => (lang, x.2.2)).map (·.1)) = [lang] := by
      have := firstSeen_const lang ((x :: xs).map fun x => (⟨x.2.2, 0, 0⟩ : Rep)) (by simp)
      rw [List.map_map, List.map_map] at this
      rw [List.map_map]
      exact this
    rw [hf, List.map_singleton, h, h, h]
    rfl

theorem lined_computeLoc (mc : Host) (before : Byte) (disk : Disk) (path : Bytes) (ks : List (String × Kind)) (h : Lined disk path ks) :
    ∃ s, (SourceFile.new before path).computeLoc (library mc) disk = some s ∧ s.locList = some (due ks) := by
  cases h with
  | known lang xs h =>
    rw [← due_known]
    exact known_computeLoc mc before disk path lang xs h
  | page stem e lang P xs hp he hl hP hd hx =>
    subst hp
    have hf : ∀ x ∈ xs.map (·.1), x.Fits P := by
      intro x hx'
      obtain ⟨y, hy, rfl⟩ := List.mem_map.mp hx'
      exact (hx y hy).fits
    have hr : ∀ x ∈ xs.map (·.1), x.Regular P := by
      intro x hx'
      obtain ⟨y, hy, rfl⟩ := List.mem_map.mp hx'
      exact (hx y hy).regular
    have hE := C68_pages_partial P hP {} _ hf hr
    have hK := C67_page P hP {} [] _ hf
    rw [List.append_nil, reports_nil, List.map_nil, List.append_nil] at hK
    rw [List.map_map] at hE hK
    have hu := page_ub P hP xs hx
    generalize htext : (xs.map fun x => x.1.text).flatten = text at hd hu
    rw [show (xs.map (Piece.text ∘ fun x => x.1)) = xs.map fun x => x.1.text from rfl, htext] at hE hK
    have hcb : parseText lang text = P.named {} text := by
      rw [parseText_emb hl]
      unfold EParser.callbacks
      rw [hu]
      simp
    have := computeLoc_text mc before stem e lang disk text he (has_emb mc hl) hd
      (parseText_inRange lang text fun Q hQ => by rw [hl] at hQ; cases hQ; exact hu)
      (by
        rw [hcb]
        exact Each.disjoint (R := OfLine) (fun x r h => ⟨by have := h.2.1; simp only; omega, by have := h.1; simp only; omega⟩) hE (terminated_facts text).1)
    rw [hcb] at this
    rw [show (P.named {} text).map tag = xs.flatMap (·.2) by
      rw [← pieces_kinds P xs 0 hx, ← hK]
      unfold EParser.named
      rw [List.map_map]
      rfl] at this
    exact this

/-- C70: `ohcount_sourcefile_get_loc_list` of a new source file for such a file returns, for each language, the numbers of its code,
comment and blank lines. -/
theorem C70_file (mc : Host) (before : Byte) (disk : Disk) (path : Bytes) (ks : List (String × Kind)) (h : Lined disk path ks) :
    ∃ w, step (library mc) ⟨SourceFile.new before path, disk⟩ .getLoc = some (w, .loc (due ks)) := by
  obtain ⟨s, h1, h2⟩ := lined_computeLoc mc before disk path ks h
  refine ⟨⟨s, disk⟩, ?_⟩
  simp only [step, h1, Option.bind_some, h2, Option.getD_some]

/-! ### Directories -/

theorem getLoc_map (g : String → Loc) (hg : ∀ x, (g x).language = x) (lang : String) : ∀ l : List String,
    LocList.getLoc (l.map g) lang = if lang ∈ l then some (g lang) else none
  | [] => rfl
  | x :: l => by
    rw [List.map_cons, LocList.getLoc, hg, getLoc_map g hg lang l]
    by_cases h : x = lang
    · subst h; simp
    · have : lang ≠ x := fun e => h e.symm
      simp [h, this]

theorem tally_zero {ks : List (String × Kind)} {lang : String} (h : lang ∉ ks.map (·.1)) (k : Kind) : tally ks lang k = 0 := by
  unfold tally
  rw [List.countP_eq_zero]
  intro x hx
  have : x.1 ≠ lang := fun e => h (e ▸ List.mem_map.mpr ⟨x, hx, rfl⟩)
  simp [this]

theorem getLoc_due (ks : List (String × Kind)) (lang : String) : (due ks).getLoc lang =
    if lang ∈ ks.map (·.1) then some ⟨lang, tally ks lang .lcode, tally ks lang .lcomment, tally ks lang .lblank, 1⟩ else none := by
  unfold due
  rw [getLoc_map _ (fun _ => rfl)]
  simp only [mem_firstSeen]

/-- What the counts of a file show for a language. -/
theorem shown_due (ks : List (String × Kind)) (lang : String) : shown (due ks) lang =
    ⟨tally ks lang .lcode, tally ks lang .lcomment, tally ks lang .lblank, if lang ∈ ks.map (·.1) then 1 else 0⟩ := by
  unfold shown
  rw [getLoc_due]
  split
  · rfl
  · rename_i h
    rw [tally_zero h, tally_zero h, tally_zero h]
    rfl

/-- C70: for a directory in which the lines of all files are known, the summary shows for each language the sums over all files, and
the number of files with lines in the language. -/
theorem C70_tree (mc : Host) (before : Byte) (disk : Disk) (dir : Bytes) (n : Node) (want : Bytes → List (String × Kind))
    (h : ∀ p ∈ addDirectory dir n, Lined disk p (want p)) :
    ∃ T, analyzeLanguages (library mc) disk (listAddDirectory before [] dir n) = some T ∧ ∀ lang,
      let total (k : Kind) : Int := ((addDirectory dir n).map fun p => (tally (want p) lang k : Int)).sum
      (shown T lang).code = total .lcode ∧ (shown T lang).comments = total .lcomment ∧ (shown T lang).blanks = total .lblank ∧
      (shown T lang).filecount = (addDirectory dir n).countP fun p => ((want p).map (·.1)).contains lang := by
  have hnew : listAddDirectory before [] dir n = (addDirectory dir n).map (SourceFile.new before) := (C15_appends before [] dir n).2
  rw [hnew]
  have hex : ∀ (ps : List Bytes) (acc : LocList), (∀ p ∈ ps, Lined disk p (want p)) →
      ∃ T, analyzeLoop (library mc) disk acc (ps.map (SourceFile.new before)) = some T := by
    intro ps
    induction ps with
    | nil => intro acc _; exact ⟨acc, rfl⟩
    | cons p ps ih =>
      intro acc hk
      obtain ⟨s, h1, _⟩ := lined_computeLoc mc before disk p _ (hk p (by simp))
      obtain ⟨T, hT⟩ := ih (acc.addLocList (s.locList.getD [])) (fun q hq => hk q (by simp [hq]))
      exact ⟨T, by simp only [List.map_cons, analyzeLoop, h1, Option.bind_some, hT]⟩
  obtain ⟨T, hT⟩ := hex _ [] h
  refine ⟨T, hT, fun lang => ?_⟩
  have hr : ∀ s ∈ (addDirectory dir n).map (SourceFile.new before), Reachable (library mc) s := by
    intro s hs
    obtain ⟨p, _, rfl⟩ := List.mem_map.mp hs
    exact ⟨before, p, fun _ => none, [], _, _, rfl, rfl⟩
  obtain ⟨c1, c2, c3, c4⟩ := C16_sum_over_files (library mc) disk _ T hr hT lang
  have hf : ∀ p ∈ addDirectory dir n, fileCounts (library mc) disk (SourceFile.new before p) = due (want p) := by
    intro p hp
    obtain ⟨s, h1, h2⟩ := lined_computeLoc mc before disk p _ (h p hp)
    simp [fileCounts, h1, h2]
  have hsum : ∀ (f : Counts → Int) (k : Kind), (∀ ks, f (shown (due ks) lang) = (tally ks lang k : Int)) →
      (((addDirectory dir n).map (SourceFile.new before)).map fun s => f (shown (fileCounts (library mc) disk s) lang)).sum =
        ((addDirectory dir n).map fun p => (tally (want p) lang k : Int)).sum := by
    intro f k hk
    rw [List.map_map]
    congr 1
    apply List.map_congr_left
    intro p hp
    show f (shown (fileCounts (library mc) disk (SourceFile.new before p)) lang) = _
    rw [hf p hp, hk]
  refine ⟨?_, ?_, ?_, ?_⟩
  · rw [c1]; exact hsum Counts.code .lcode (fun ks => by rw [shown_due])
  · rw [c2]; exact hsum Counts.comments .lcomment (fun ks => by rw [shown_due])
  · rw [c3]; exact hsum Counts.blanks .lblank (fun ks => by rw [shown_due])
  · rw [c4, ← List.countP_eq_length_filter, List.countP_map]
    congr 1
    apply List.countP_congr
    intro p hp
    show ((fileCounts (library mc) disk (SourceFile.new before p)).getLoc lang).isSome = true ↔ _
    rw [hf p hp, getLoc_due, List.contains_iff_mem]
    split <;> simp_all

/-! ### C72 -/

theorem lineOriented_key : ∀ P ∈ lineOriented, (bytes P.lang, P.name) ∈ Tables.parsers →
    (Tables.parsers.find? fun y => y.1 == bytes P.lang).map (·.2) = some P.name := by
  decide +kernel

/-- C72: for the languages that are read line by line, `ohcount_sourcefile_get_loc_list` of a new source file counts, whatever the text
is, as many lines as the text has; those counted as blank are the blank ones, and all lines are of the language of the file. -/
theorem C72_total (mc : Host) (before : Byte) (stem e : Bytes) (P : Parser) (hP : P ∈ lineOriented) (hT : (bytes P.lang, P.name) ∈ Tables.parsers)
    (he : (e, Tables.ExtVal.lang P.lang) ∈ Tables.extensions) (disk : Disk) (text : Bytes) (hd : disk (stem ++ Detector.bs "." ++ e) = some text)
    (ht : Plain text) :
    ∃ w L, step (library mc) ⟨SourceFile.new before (stem ++ Detector.bs "." ++ e), disk⟩ .getLoc = some (w, .loc L) ∧
      L.map (·.language) = (if (dueLines text).isEmpty then [] else [P.lang]) ∧
      (shown L P.lang).code + (shown L P.lang).comments + (shown L P.lang).blanks = (dueLines text).length ∧
      (shown L P.lang).blanks = (dueLines text).countP fun x => blankLine text x.1 x.2 := by
  have hk := lineOriented_key P hP hT
  have hm : P ∈ parsers := lineOriented_sub P hP
  have hx : ∃ x, (Tables.parsers.find? fun y => y.1 == bytes P.lang) = some x ∧ x.2 = P.name := by
    cases hf : Tables.parsers.find? fun x => x.1 == bytes P.lang with
    | none => rw [hf] at hk; cases hk
    | some x => rw [hf] at hk; exact ⟨x, rfl, by simpa using hk⟩
  obtain ⟨x, hx, hxn⟩ := hx
  have hpt : parseText P.lang text = reports P.lang P.line.machine {} text := by
    unfold parseText ohcountParse
    rw [hx]
    dsimp only
    rw [hxn, find_parser P hm]
  have hhp : (library mc).hasParser P.lang = true := by
    have := List.find?_some hx
    exact List.any_eq_true.mpr ⟨x, List.mem_of_find?_eq_some hx, this⟩
  have hE := C35_one_report_per_line P hP {} text ht
  have hB := C36_blank_iff P hP {} text ht
  have hpw : (dueLines text).Pairwise (fun x y => x.2 ≤ y.1) := by
    obtain ⟨h1, h2⟩ := terminated_facts text
    unfold dueLines
    rw [List.pairwise_append]
    refine ⟨h1, ?_, fun x hx y hy => ?_⟩
    · split <;> simp
    · split at hy
      · cases hy
      · rw [List.mem_singleton.mp hy]
        exact (h2 x hx).1
  obtain ⟨s, h1, h2⟩ := computeLoc_text mc before stem e P.lang disk text he hhp hd
    (by rw [hpt]; exact plain_inRange P hm {} text)
    (by
      rw [hpt]
      exact Each.disjoint (R := SameLine) (fun x r h => ⟨by have := h.2.1; simp only; omega, by have := h.1; simp only; omega⟩) hE hpw)
  refine ⟨⟨s, disk⟩, due ((parseText P.lang text).map tag), by simp only [step, h1, Option.bind_some, h2, Option.getD_some], ?_⟩
  have hlen := hE.length
  rw [hpt]
  unfold reports
  rw [List.map_map, show (tag ∘ fun r : Rep => (⟨P.lang, r.kind, r.s, r.e⟩ : Report)) = fun r => (P.lang, r.kind) from rfl]
  generalize lineReports P.line.machine {} text = rs at hlen hB
  have hblank : rs.countP (fun r => r.kind == .lblank) = (dueLines text).countP fun x => blankLine text x.1 x.2 := by
    clear hlen h2 hE hpw
    generalize dueLines text = ls at hB
    induction hB with
    | nil => rfl
    | @cons a b l r h1 _ ih =>
      rw [List.countP_cons, List.countP_cons, ih]
      have : (b.kind == .lblank) = blankLine text a.1 a.2 := by
        rw [Bool.eq_iff_iff, beq_iff_eq]; exact h1
      rw [this]
  have htl : ∀ k, tally (rs.map fun r => (P.lang, r.kind)) P.lang k = rs.countP fun r => r.kind == k := by
    intro k
    unfold tally
    rw [List.countP_map]
    apply List.countP_congr
    intro r _
    simp
  refine ⟨?_, ?_, ?_⟩
  · rw [show due (rs.map fun r => (P.lang, r.kind)) = due ((rs.map fun r => (⟨P.lang, r.kind, r.s, r.e⟩ : Report)).map tag) by rw [List.map_map]; rfl, ← due_of, List.map_map]
    by_cases h0 : rs = []
    · subst h0
      have : dueLines text = [] := List.length_eq_zero_iff.mp hlen
      rw [this]; rfl
    · rw [firstSeen_const P.lang rs h0]
      have : (dueLines text).isEmpty = false := by
        rw [List.isEmpty_eq_false_iff]
        intro e
        rw [e] at hlen
        exact h0 (List.length_eq_zero_iff.mp hlen.symm)
      rw [this]; rfl
  · rw [shown_due, htl, htl, htl, hlen]
    have : ∀ l : List Rep, l.countP (fun r => r.kind == .lcode) + l.countP (fun r => r.kind == .lcomment) + l.countP (fun r => r.kind == .lblank) = l.length := by
      intro l
      induction l with
      | nil => rfl
      | cons r l ih =>
        rw [List.countP_cons, List.countP_cons, List.countP_cons, List.length_cons, ← ih]
        cases r.kind <;> simp <;> omega
    have := this rs
    dsimp only
    omega
  · rw [shown_due]
    dsimp only
    rw [htl, hblank]

/-! ### Cases -/

/-- The example page: two lines of JSP around a region of Java, in which a comment and code are on lines of their own. -/
def page : List (Piece × List (String × Kind)) := [
  (.plain (bytes "<p>\n\n"), [("html", .lcode), ("html", .lblank)]),
  (.region jspJava (bytes "// one\nint a = b < c ? 5 % 3 : 1;\n"), [("html", .lcode), ("java", .lcomment), ("java", .lcode), ("html", .lcode)]),
  (.plain (bytes "<!-- -->\n"), [("html", .lcomment)])]

theorem page_has : ∀ x ∈ page, Has Emb.Jsp.parser x.1 x.2 := by
  refine List.forall_mem_cons.mpr ⟨?_, List.forall_mem_cons.mpr ⟨?_, List.forall_mem_cons.mpr ⟨?_, fun _ h => nomatch h⟩⟩⟩
  · have := Has.plain (P := Emb.Jsp.parser) (bytes "<p>\n\n") (by decide +kernel) (show Each OfLine _ _ by decide +kernel) (by decide +kernel)
    rw [show ((Emb.Jsp.parser.reports {} (bytes "<p>\n\n")).map fun r => (Emb.Jsp.parser.langs.getD r.lang "", r.kind)) =
      [("html", .lcode), ("html", .lblank)] by decide +kernel] at this
    exact this
  · have := Has.region (P := Emb.Jsp.parser) jspJava _ LexisTable.java_line (List.mem_of_getElem? (i := 6) rfl) rfl (by simp [classified, jspJava]) jspJava_holds
      (by decide) (by decide +kernel)
    rw [show (LexisTable.java_line.lines (bytes "// one\nint a = b < c ? 5 % 3 : 1;\n")).map (fun x => (jspJava.sub.lang, x.2.2)) =
      [("java", .lcomment), ("java", .lcode)] by decide +kernel] at this
    exact this
  · have := Has.plain (P := Emb.Jsp.parser) (bytes "<!-- -->\n") (by decide +kernel) (show Each OfLine _ _ by decide +kernel) (by decide +kernel)
    rw [show ((Emb.Jsp.parser.reports {} (bytes "<!-- -->\n")).map fun r => (Emb.Jsp.parser.langs.getD r.lang "", r.kind)) =
      [("html", .lcomment)] by decide +kernel] at this
    exact this

/-- The hypotheses of C70 are met by a directory with the page and a Java file. -/
example :
    let disk : Disk := fun p => if p = bytes "d/A.java" then some (bytes "class A { // a\n\n}\n") else if p = bytes "d/x.jsp" then some (page.map fun x => x.1.text).flatten else none
    let tree : Node := .dir true [(bytes "A.java", .reg), (bytes "x.jsp", .reg)]
    addDirectory (bytes "d") tree = [bytes "d/A.java", bytes "d/x.jsp"] ∧
    Lined disk (bytes "d/A.java") [("java", .lcode), ("java", .lblank), ("java", .lcode)] ∧
    Lined disk (bytes "d/x.jsp") (page.flatMap (·.2)) ∧
    due (page.flatMap (·.2)) = [⟨"html", 3, 1, 1, 1⟩, ⟨"java", 1, 1, 0, 1⟩] := by
  refine ⟨by decide +kernel, ?_, ?_, by decide +kernel⟩
  · have := Known.lexis (disk := fun p => if p = bytes "d/A.java" then some (bytes "class A { // a\n\n}\n") else if p = bytes "d/x.jsp" then some (page.map fun x => x.1.text).flatten else none)
      (path := bytes "d/A.java") (bytes "d/A") (bytes "java") parse_java LexisTable.java_line (bytes "class A { // a\n\n}\n")
      (by decide +kernel) (by decide +kernel) (by simp [classified]) (by decide +kernel) (by decide +kernel) (by decide) (by decide +kernel)
    rw [show LexisTable.java_line.lines (bytes "class A { // a\n\n}\n") = [(0, 15, .lcode), (15, 16, .lblank), (16, 18, .lcode)] by decide +kernel] at this
    exact .known _ _ this
  · exact .page (bytes "d/x") (bytes "jsp") "jsp" Emb.Jsp.parser page (by decide +kernel) (by decide +kernel) rfl (List.mem_of_getElem? (i := 3) rfl)
      (by rw [if_neg (by decide +kernel), if_pos rfl]) page_has

/-- A file of a language that is read line by line: the last line is not terminated, the quotes are not closed. -/
example : parse_ada ∈ lineOriented ∧ (bytes parse_ada.lang, parse_ada.name) ∈ Tables.parsers ∧ (bytes "adb", Tables.ExtVal.lang parse_ada.lang) ∈ Tables.extensions ∧
    Plain (bytes "a := \"b\n \n-- c\nd") ∧ (dueLines (bytes "a := \"b\n \n-- c\nd")).length = 4 ∧
    ((dueLines (bytes "a := \"b\n \n-- c\nd")).countP fun x => blankLine (bytes "a := \"b\n \n-- c\nd") x.1 x.2) = 1 :=
  ⟨List.mem_of_getElem? (i := 0) rfl, by decide +kernel, by decide +kernel, by decide, by decide +kernel, by decide +kernel⟩

end Ohcount.PageCounts
