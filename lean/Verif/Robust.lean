import Verif.LibraryProps
import Verif.Cert.WAll
import Verif.Cert.EW

/-!
C71: recording the lines of a file never leaves the buffers, except possibly for pages.
-/

namespace Ohcount.Robust
open Ohcount Ohcount.Ragel Ohcount.ParsedLanguageProps Ohcount.SourceFileProps Ohcount.Gram Ohcount.Cert

/-- The languages of pages with style sheets and scripts. -/
def pageLanguages : List String := ["html", "jsp", "php", "clearsilver_template", "cs_aspx", "rhtml", "vb_aspx"]

/-- Whether a language is one of them. -/
def IsPage (lang : String) : Prop := ∃ x ∈ pageLanguages, bytes lang = bytes x

/-! ### Reports -/

theorem inRange_firm {lang : String} {buf : List Byte} {k : Kind} {s e : Nat} (h1 : s < e) (h2 : e ≤ buf.length)
    (h3 : Firm buf e ∨ e = buf.length) : InRange buf ⟨lang, k, s, e⟩ := by
  refine ⟨Int.natCast_nonneg _, by dsimp only; omega, by dsimp only; omega, fun _ => ?_⟩
  dsimp only
  simp only [Int.toNat_natCast]
  -- a byte that is neither blank nor tab bounds the run of blanks
  have key : ∀ (i : Nat) (b : Byte), s ≤ i → buf[i]? = some b → b ≠ 32 → b ≠ 9 → firstNonBlank buf s ≤ i := by
    intro i b hi hb h32 h9
    have hlt := (List.getElem?_eq_some_iff.mp hb).1
    have := inRange_of_nonblank buf ⟨"", .lcode, s, (i : Int) + 1⟩ (Int.natCast_nonneg _) (by dsimp only; omega) (by dsimp only; omega)
      (fun _ => ⟨i, b, by dsimp only; omega, by dsimp only; omega, hb, h32, h9⟩)
    have h := this.2.2.2 (by nofun)
    simp only [Int.toNat_natCast] at h
    rcases Nat.lt_or_ge i (firstNonBlank buf s) with g | g
    · -- then the byte at `i` would be a blank
      exfalso
      have : firstNonBlank buf s = i + 1 := by omega
      simp only [firstNonBlank, leadingBlanks] at this
      have hl : i - s < ((buf.drop s).takeWhile fun b => b == 0x20 || b == 0x09).length := by omega
      have hm := List.getElem_mem hl
      have hp := List.all_eq_true.mp (List.all_takeWhile (l := buf.drop s) (p := fun b : Byte => b == 0x20 || b == 0x09)) _ hm
      rw [(List.takeWhile_prefix _).getElem hl] at hp
      rw [List.getElem_drop] at hp
      have e : buf[s + (i - s)]? = some b := by rw [show s + (i - s) = i by omega]; exact hb
      have e' := (List.getElem?_eq_some_iff.mp e).2
      rw [e'] at hp
      simp only [Bool.or_eq_true, beq_iff_eq] at hp
      rcases hp with hp | hp
      · exact h32 hp
      · exact h9 hp
    · exact g
  rcases h3 with (⟨i, b, rfl, hb, b1, b2⟩ | ⟨i, b, hi, hb, b1, b2⟩) | rfl
  · have := key i b (by omega) hb b1 b2
    omega
  · have := key i b (by omega) hb b1 b2
    omega
  · simp only [firstNonBlank, leadingBlanks]
    have := (List.takeWhile_sublist (l := buf.drop s) (fun b : Byte => b == 0x20 || b == 0x09)).length_le
    rw [List.length_drop] at this
    omega

/-- The callbacks of the parsers without embedded languages. -/
theorem plain_inRange (P : Parser) (hP : P ∈ parsers) (l : Leftover) (buf : List Byte) :
    ∀ r ∈ reports P.lang P.line.machine l buf, InRange buf r := by
  intro r hr
  unfold reports at hr
  obtain ⟨r', hr', rfl⟩ := List.mem_map.mp hr
  obtain ⟨W⟩ := solidAll P hP
  obtain ⟨g1, g2⟩ := C33_ranges P hP l buf r' hr'
  exact inRange_firm g1 g2 (lineReports_solid W l buf r' hr')

/-- The callbacks of the others. -/
theorem named_inRange (P : EParser) (hP : P ∈ embParsers) (l : ELeft) (buf : List Byte) : ∀ r ∈ P.named l buf, InRange buf r := by
  obtain ⟨_, _, _, h3, _⟩ := lines_of_checked (embLangs_pos P hP) (embLineAll P hP) l buf (fun h => nomatch h)
  intro r hr
  obtain ⟨r', hr', rfl⟩ := List.mem_map.mp hr
  obtain ⟨_, g1, g2⟩ := h3 r' hr'
  exact inRange_firm g1 g2 (reports_solid (embSolidAll P hP) l buf r' hr')

theorem parseText_inRange (lang : String) (text : Bytes)
    (h : ∀ P, embParserOf lang = some P → (P.final P.multi {} text).d.ub = false) : ∀ r ∈ parseText lang text, InRange text r := by
  unfold parseText
  split
  · rename_i rs hrs
    unfold ohcountParse at hrs
    split at hrs
    · cases hrs
    · split at hrs
      · cases hrs
      · rename_i P hP
        simp only [Option.some.injEq] at hrs
        subst hrs
        exact plain_inRange P (List.mem_of_find?_eq_some hP) {} text
  · split
    · rename_i P hP
      unfold EParser.callbacks
      rw [h P hP]
      simpa using named_inRange P (embParserOf_mem hP) {} text
    · exact fun _ h => nomatch h

theorem page_key : ∀ x ∈ Tables.parsers, pageNames.contains x.2 = true → pageLanguages.any (fun y => x.1 == bytes y) = true := by
  decide +kernel

theorem not_page_parser {lang : String} (h : ¬ IsPage lang) {P : EParser} (hP : embParserOf lang = some P) : P.name ∉ pageNames := by
  intro hp
  unfold embParserOf at hP
  split at hP
  · cases hP
  · rename_i x hx
    have e1 : x.1 = bytes lang := by simpa using List.find?_some hx
    have e2 : P.name = x.2 := by simpa using List.find?_some hP
    have := page_key x (List.mem_of_find?_eq_some hx) (List.contains_iff_mem.mpr (e2 ▸ hp))
    obtain ⟨y, hy, he⟩ := List.any_eq_true.mp this
    exact h ⟨y, hy, by rw [← e1]; simpa using he⟩

/-- For every language but those of pages, and every text, all line callbacks are such that recording them stays inside the
buffers (C08). -/
theorem C71_reports_partial (lang : String) (h : ¬ IsPage lang) (text : Bytes) : ∀ r ∈ parseText lang text, InRange text r :=
  parseText_inRange lang text fun P hP => C64_no_null_partial P (embParserOf_mem hP) (not_page_parser h hP) {} text

/-- For HTML that is so if no end tag contains a line end. -/
theorem C71_html_partial (text : Bytes) (h : TagsClosed text) : ∀ r ∈ parseText "html" text, InRange text r := by
  refine parseText_inRange "html" text fun P hP => ?_
  have : embParserOf "html" = some Emb.Html.parser := by rfl
  rw [this] at hP
  cases hP
  exact C64_html_partial {} text h

/-! ### Histories of calls -/

/-- `contents_size` is the length of the contents, if there are any. -/
def Sized (s : SourceFile) : Prop := ∀ c, s.contents = some c → s.size = c.length

theorem sized_load {d : Disk} {s : SourceFile} (h : Sized s) :
    Sized (s.loadContents d) ∧ (s.loadContents d).size = ((s.loadContents d).contents.getD []).length := by
  unfold SourceFile.loadContents
  split
  · rename_i c hc
    exact ⟨h, by rw [hc, Option.getD_some]; exact h c hc⟩
  · dsimp only
    split
    · exact ⟨(by intro c hc; cases hc; rfl), rfl⟩
    · exact ⟨(by intro c hc; cases hc), rfl⟩
    · exact ⟨(by intro c hc; cases hc), rfl⟩

theorem sized_sizeOf {d : Disk} {s : SourceFile} (h : Sized s) : Sized (s.sizeOf d) := by
  unfold SourceFile.sizeOf
  split
  · exact (sized_load h).1
  · exact h

theorem sized_detect {env : Env} {d : Disk} {s : SourceFile} (h : Sized s) : Sized (s.detectLanguage env d) := by
  unfold SourceFile.detectLanguage
  split
  · exact h
  · generalize env.detect s d = v
    obtain ⟨lang, looked⟩ := v
    dsimp only
    cases looked with
    | true => exact (sized_load h).1
    | false => exact h

theorem runParser_ok {mc : Host} {d : Disk} {s : SourceFile} (h : Sized s)
    (hl : ∀ lang, (s.detectLanguage (library mc) d).language = some lang → ¬ IsPage lang) :
    Sized (s.runParser (library mc) d).1 ∧
    ∀ r ∈ (s.runParser (library mc) d).2, InRange ((s.runParser (library mc) d).1.contents.getD []) r := by
  unfold SourceFile.runParser
  dsimp only
  have h1 := sized_detect (env := library mc) (d := d) h
  generalize s.detectLanguage (library mc) d = s1 at h1 hl
  split
  · exact ⟨h1, fun _ h => nomatch h⟩
  · rename_i lang hlang
    split
    · dsimp only
      obtain ⟨h2, h3⟩ := sized_load (d := d) h1
      have e : (s1.loadContents d).sizeOf d = s1.loadContents d := by
        unfold SourceFile.sizeOf
        rw [if_neg]
        omega
      rw [e]
      refine ⟨h2, ?_⟩
      show ∀ r ∈ parseText lang _, _
      rw [h3, Int.toNat_natCast, List.take_length]
      exact C71_reports_partial lang (hl lang hlang) _
    · exact ⟨h1, fun _ h => nomatch h⟩

theorem doParse_ok {mc : Host} {d : Disk} {s : SourceFile} (h : Sized s)
    (hl : ∀ lang, (s.detectLanguage (library mc) d).language = some lang → ¬ IsPage lang) :
    ∃ s', s.doParse (library mc) d = some s' ∧ Sized s' := by
  unfold SourceFile.doParse
  split
  · exact ⟨s, rfl, h⟩
  · obtain ⟨h1, h2⟩ := runParser_ok h hl
    dsimp only
    generalize s.runParser (library mc) d = v at h1 h2
    obtain ⟨pls, hp, _⟩ := C08_memory_safe (library mc).junk (v.1.contents.getD []) v.2 h2
    rw [hp]
    exact ⟨_, rfl, by intro c hc; cases hc⟩

/-- One call. -/
theorem step_ok {mc : Host} {w : World} (op : Op) (h : Sized w.sf)
    (hl : ∀ lang, (w.sf.detectLanguage (library mc) w.disk).language = some lang → ¬ IsPage lang) :
    ∃ w' r, step (library mc) w op = some (w', r) ∧ Sized w'.sf := by
  cases op with
  | setDiskpath p => exact ⟨_, _, rfl, h⟩
  | setContents c => exact ⟨_, _, rfl, by intro c' hc; cases hc; rfl⟩
  | getContents => exact ⟨_, _, rfl, (sized_load h).1⟩
  | getSize => exact ⟨_, _, rfl, sized_sizeOf h⟩
  | setLanguage n =>
    refine ⟨_, _, rfl, ?_⟩
    show Sized (w.sf.setLanguage _ n)
    unfold SourceFile.setLanguage
    split <;> exact h
  | getLanguage => exact ⟨_, _, rfl, sized_detect h⟩
  | parse =>
    obtain ⟨s, e, hs⟩ := doParse_ok h hl
    exact ⟨_, _, by simp only [step, e]; rfl, hs⟩
  | getParsed =>
    obtain ⟨s, e, hs⟩ := doParse_ok h hl
    exact ⟨_, _, by simp only [step, e]; rfl, hs⟩
  | parseWithCallback => exact ⟨_, _, rfl, (runParser_ok h hl).1⟩
  | getLicenses =>
    obtain ⟨s, e, hs⟩ := doParse_ok h hl
    simp only [step, SourceFile.computeLicenses]
    split
    · exact ⟨_, _, rfl, h⟩
    · rw [e]
      exact ⟨_, _, rfl, hs⟩
  | getLoc =>
    obtain ⟨s, e, hs⟩ := doParse_ok h hl
    simp only [step, SourceFile.computeLoc]
    split
    · exact ⟨_, _, rfl, h⟩
    · rw [e]
      exact ⟨_, _, rfl, hs⟩
  | diskChange d => exact ⟨_, _, rfl, h⟩

theorem run_ok {mc : Host} : ∀ (ops : List Op) (w : World), Sized w.sf → run (library mc) w ops = none →
    ∃ n w' rs lang, n < ops.length ∧ run (library mc) w (ops.take n ++ [.getLanguage]) = some (w', rs ++ [.language (some lang)]) ∧ IsPage lang
  | [], w, h, hn => by cases hn
  | op :: ops, w, h, hn => by
    by_cases hl : ∀ lang, (w.sf.detectLanguage (library mc) w.disk).language = some lang → ¬ IsPage lang
    · obtain ⟨w1, r, e, h1⟩ := step_ok op h hl
      have hn' : run (library mc) w1 ops = none := by
        simp only [run, e, Option.bind_some] at hn
        cases hr : run (library mc) w1 ops with
        | none => rfl
        | some v => rw [hr] at hn; cases hn
      obtain ⟨n, w', rs, lang, g1, g2, g3⟩ := run_ok ops w1 h1 hn'
      refine ⟨n + 1, w', r :: rs, lang, Nat.succ_lt_succ g1, ?_, g3⟩
      simp only [List.take_succ_cons, List.cons_append, run, e, Option.bind_some, g2]
    · obtain ⟨lang, hl⟩ := Classical.not_forall.mp hl
      obtain ⟨hl, hp⟩ := Classical.not_imp.mp hl
      refine ⟨0, ⟨w.sf.detectLanguage (library mc) w.disk, w.disk⟩, [], lang, Nat.zero_lt_succ _, ?_, Classical.not_not.mp hp⟩
      simp only [List.take_zero, List.nil_append, run, step, Option.bind_some, hl]

/-- The property in full: no history of calls on a new source file records a line outside of its buffers, whatever the disk
contains and whenever it changes. -/
def C71_full : Prop := ∀ (mc : Host) (before : Byte) (path : Bytes) (disk : Disk) (ops : List Op),
  run (library mc) ⟨SourceFile.new before path, disk⟩ ops ≠ none

/-- A history that does has a point at which the library would have said that the file is a page. -/
theorem C71_histories_partial (mc : Host) (before : Byte) (path : Bytes) (disk : Disk) (ops : List Op)
    (h : run (library mc) ⟨SourceFile.new before path, disk⟩ ops = none) :
    ∃ n w rs lang, n < ops.length ∧
      run (library mc) ⟨SourceFile.new before path, disk⟩ (ops.take n ++ [.getLanguage]) = some (w, rs ++ [.language (some lang)]) ∧
      IsPage lang :=
  run_ok ops _ (by intro c hc; cases hc) h

/-- So it is for the summary of a directory. -/
theorem C71_tree_partial (mc : Host) (before : Byte) (disk : Disk) (dir : Bytes) (n : Node)
    (h : analyzeLanguages (library mc) disk (listAddDirectory before [] dir n) = none) :
    ∃ path ∈ addDirectory dir n, ∃ w lang,
      step (library mc) ⟨SourceFile.new before path, disk⟩ .getLanguage = some (w, .language (some lang)) ∧ IsPage lang := by
  rw [show listAddDirectory before [] dir n = (addDirectory dir n).map (SourceFile.new before) from (C15_appends before [] dir n).2] at h
  have gen : ∀ (ps : List Bytes) (acc : LocList), analyzeLoop (library mc) disk acc (ps.map (SourceFile.new before)) = none →
      ∃ path ∈ ps, ∃ w lang,
        step (library mc) ⟨SourceFile.new before path, disk⟩ .getLanguage = some (w, .language (some lang)) ∧ IsPage lang := by
    intro ps
    induction ps with
    | nil => intro acc h; cases h
    | cons p ps ih =>
      intro acc h
      by_cases hl : ∀ lang, ((SourceFile.new before p).detectLanguage (library mc) disk).language = some lang → ¬ IsPage lang
      · obtain ⟨s', e, _⟩ := doParse_ok (mc := mc) (d := disk) (s := SourceFile.new before p) (by intro c hc; cases hc) hl
        have e' : (SourceFile.new before p).computeLoc (library mc) disk = some { s' with locList := some (locListOf (s'.parsed.getD [])) } := by
          unfold SourceFile.computeLoc
          split
          · rename_i c hc
            cases hc
          · rw [e]
            rfl
        simp only [List.map_cons, analyzeLoop, e', Option.bind_some] at h
        obtain ⟨q, hq, g⟩ := ih _ h
        exact ⟨q, List.mem_cons_of_mem _ hq, g⟩
      · obtain ⟨lang, hl⟩ := Classical.not_forall.mp hl
        obtain ⟨hl, hp⟩ := Classical.not_imp.mp hl
        exact ⟨p, List.mem_cons_self .., ⟨(SourceFile.new before p).detectLanguage (library mc) disk, disk⟩, lang, by simp only [step, hl], Classical.not_not.mp hp⟩
  exact gen _ _ h

/-- The hypothesis is met, and the property in full is wrong: a page with an end tag that goes on in the next line. -/
theorem C71_negation_page : run (library LibraryProps.plainHost)
    ⟨SourceFile.new 0 (bytes "a.html"), fun p => if p = bytes "a.html" then some splitTag else none⟩ [.getLoc] = none := by
  have : (run (library LibraryProps.plainHost)
    ⟨SourceFile.new 0 (bytes "a.html"), fun p => if p = bytes "a.html" then some splitTag else none⟩ [.getLoc]).isNone = true := by
    decide +kernel
  simpa using this

theorem C71_negation : ¬ C71_full := fun h => h _ _ _ _ _ C71_negation_page

/-- A history that does not end with a page: the calls on a Haml file, of which the contents change in between. -/
example : ((run (library LibraryProps.plainHost)
    ⟨SourceFile.new 0 (bytes "a.haml"), fun p => if p = bytes "a.haml" then some (bytes "%p a\n= b  \n\n  ") else none⟩
    [.getParsed, .setContents (bytes "%b"), .getLoc]).map fun x => match x.2 with
      | [_, _, .loc l] => l
      | _ => []) = some [⟨"haml", 1, 0, 1, 1⟩, ⟨"ruby", 1, 0, 0, 1⟩] := by
  decide +kernel

example : ¬ IsPage "haml" ∧ IsPage "html" ∧ ¬ IsPage "c" := by
  refine ⟨?_, ⟨"html", by decide, rfl⟩, ?_⟩ <;> (rintro ⟨x, hx, e⟩; revert x; decide +kernel)

end Ohcount.Robust
