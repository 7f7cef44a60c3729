import Verif.SourceFileProps

/-!
C112: what a Ruby program sees of one source file and of a list of source files.
-/

namespace Ohcount

/-- `SourceFile#languages`, ruby/ohcount.rb:41-43, of what `get_parsed_language_list` returns. `array_from_list` (:62-70) makes an array
of the elements of a list, in order; lists are arrays in the model. -/
def rubyLanguages (pls : List ParsedLanguage) : List String := pls.map ParsedLanguage.name

/-- `SourceFile#language_breakdown`, ruby/ohcount.rb:31-33. -/
def rubyBreakdown (pls : List ParsedLanguage) (language : String) : Option ParsedLanguage := pls.find? fun lb => lb.name == language

/-- `SourceFileList#each_source_file`, ruby/ohcount.rb:74-80: the files that are yielded, in order, and the files of the list
afterwards. `polyglot` (:14) is `get_language`, which detects the language; a null pointer is `nil`. -/
def rubyEachSourceFile (env : Env) (disk : Disk) : List SourceFile → List SourceFile × List SourceFile
  | [] => ([], [])
  | sf :: rest =>
    let sf := sf.detectLanguage env disk
    let (yielded, after) := rubyEachSourceFile env disk rest
    (if sf.language.isSome then sf :: yielded else yielded, sf :: after)

/-- `SourceFileList#each`, ruby/ohcount.rb:83-89: the file names that are yielded. -/
def rubyEach (l : List SourceFile) : List (List Byte) := l.map fun sf => sf.filepath.drop sf.parts.filename

/-- `SourceFileList#size`, ruby/ohcount.rb:91-99. -/
def rubySize (l : List SourceFile) : Nat := l.foldl (fun count _ => count + 1) 0

end Ohcount

namespace Ohcount.SourceFileProps
open Ohcount LocProps ParsedLanguageProps

/-- The licenses that are stored are those of the parsed languages. -/
def Licensed (env : Env) (s : SourceFile) : Prop :=
  ∀ l, s.licenses = some l → ∃ pls, s.parsed = some pls ∧ l = env.detectLicenses pls

theorem loadContents_stored (disk : Disk) (s : SourceFile) : (s.loadContents disk).licenses = s.licenses ∧ (s.loadContents disk).parsed = s.parsed := by
  unfold SourceFile.loadContents
  split
  · exact ⟨rfl, rfl⟩
  · dsimp only; split <;> exact ⟨rfl, rfl⟩

theorem sizeOf_stored (disk : Disk) (s : SourceFile) : (s.sizeOf disk).licenses = s.licenses ∧ (s.sizeOf disk).parsed = s.parsed := by
  unfold SourceFile.sizeOf
  split
  · exact loadContents_stored disk s
  · exact ⟨rfl, rfl⟩

theorem detectLanguage_stored (env : Env) (disk : Disk) (s : SourceFile) :
    (s.detectLanguage env disk).licenses = s.licenses ∧ (s.detectLanguage env disk).parsed = s.parsed := by
  unfold SourceFile.detectLanguage
  split
  · exact ⟨rfl, rfl⟩
  · dsimp only
    split
    · exact loadContents_stored disk s
    · exact ⟨rfl, rfl⟩

theorem runParser_stored (env : Env) (disk : Disk) (s : SourceFile) :
    (s.runParser env disk).1.licenses = s.licenses ∧ (s.runParser env disk).1.parsed = s.parsed := by
  have h := detectLanguage_stored env disk s
  unfold SourceFile.runParser
  dsimp only
  split
  · exact h
  · split
    · have h1 := loadContents_stored disk (s.detectLanguage env disk)
      have h2 := sizeOf_stored disk ((s.detectLanguage env disk).loadContents disk)
      exact ⟨h2.1.trans (h1.1.trans h.1), h2.2.trans (h1.2.trans h.2)⟩
    · exact h

theorem doParse_licensed {env : Env} {disk : Disk} {s s' : SourceFile} (h : s.doParse env disk = some s') (hl : Licensed env s) : Licensed env s' := by
  obtain ⟨_, h2, _, h4, _⟩ := doParse_fields env disk s s' h
  intro l e
  rw [h4] at e
  obtain ⟨pls, e1, e2⟩ := hl l e
  rw [h2 pls e1]
  exact ⟨pls, e1, e2⟩

theorem step_licensed (env : Env) (w w' : World) (op : Op) (r : Res) (hl : Licensed env w.sf) (hs : step env w op = some (w', r)) :
    Licensed env w'.sf ∧ ∀ l, r = .licenses l → ∃ pls, w'.sf.parsed = some pls ∧ l = env.detectLicenses pls := by
  have same : ∀ s : SourceFile, s.licenses = w.sf.licenses ∧ s.parsed = w.sf.parsed → Licensed env s := by
    intro s h l e
    rw [h.1] at e; rw [h.2]; exact hl l e
  cases op <;> simp only [step] at hs
  case setDiskpath => cases hs; exact ⟨same _ ⟨rfl, rfl⟩, fun l h => by cases h⟩
  case setContents => cases hs; exact ⟨same _ ⟨rfl, rfl⟩, fun l h => by cases h⟩
  case getContents => cases hs; exact ⟨same _ (loadContents_stored _ _), fun l h => by cases h⟩
  case getSize => cases hs; exact ⟨same _ (sizeOf_stored _ _), fun l h => by cases h⟩
  case setLanguage =>
    cases hs
    refine ⟨same _ ?_, fun l h => by cases h⟩
    unfold SourceFile.setLanguage
    split <;> exact ⟨rfl, rfl⟩
  case getLanguage => cases hs; exact ⟨same _ (detectLanguage_stored _ _ _), fun l h => by cases h⟩
  case parseWithCallback => cases hs; exact ⟨same _ (runParser_stored _ _ _), fun l h => by cases h⟩
  case diskChange => cases hs; exact ⟨hl, fun l h => by cases h⟩
  case parse =>
    obtain ⟨s1, h1, h2⟩ := Option.bind_eq_some_iff.1 hs
    cases h2
    exact ⟨doParse_licensed h1 hl, fun l h => by cases h⟩
  case getParsed =>
    obtain ⟨s1, h1, h2⟩ := Option.bind_eq_some_iff.1 hs
    cases h2
    exact ⟨doParse_licensed h1 hl, fun l h => by cases h⟩
  case getLoc =>
    obtain ⟨s1, h1, h2⟩ := Option.bind_eq_some_iff.1 hs
    cases h2
    refine ⟨?_, fun l h => by cases h⟩
    unfold SourceFile.computeLoc at h1
    split at h1
    · cases h1; exact hl
    · obtain ⟨s2, h3, h4⟩ := Option.bind_eq_some_iff.1 h1
      cases h4
      have := doParse_licensed h3 hl
      exact this
  case getLicenses =>
    obtain ⟨s1, h1, h2⟩ := Option.bind_eq_some_iff.1 hs
    cases h2
    have key : Licensed env s1 ∧ ∃ l, s1.licenses = some l := by
      unfold SourceFile.computeLicenses at h1
      split at h1
      · next l e => cases h1; exact ⟨hl, l, e⟩
      · obtain ⟨s2, h3, h4⟩ := Option.bind_eq_some_iff.1 h1
        cases h4
        obtain ⟨⟨pls, h5⟩, _⟩ := doParse_fields env w.disk _ _ h3
        refine ⟨fun l e => ⟨pls, h5, ?_⟩, _, rfl⟩
        simp only [Option.some.injEq] at e
        rw [← e, h5]; rfl
    refine ⟨key.1, fun l h => ?_⟩
    obtain ⟨l', e⟩ := key.2
    simp only [e, Option.getD_some, Res.licenses.injEq] at h
    exact key.1 l (h ▸ e)

/-- Parsed languages that a call has returned are still there at the end. -/
theorem parsed_end (env : Env) (before : Byte) (path : List Byte) (disk : Disk) (ops : List Op) (w' : World) (res : List Res)
    (hr : run env ⟨SourceFile.new before path, disk⟩ ops = some (w', res)) (p : List ParsedLanguage) (hp : Res.parsed p ∈ res) :
    w'.sf.parsed = some p := by
  have gen : ∀ (ops : List Op) (w w' : World) (res : List Res), Inv w.sf → run env w ops = some (w', res) → Res.parsed p ∈ res →
      w'.sf.parsed = some p := by
    intro ops
    induction ops with
    | nil => intro w w' res _ h; cases h; simp
    | cons op ops ih =>
      intro w w' res hi h hp
      simp only [run] at h
      obtain ⟨⟨w1, r⟩, hs, h⟩ := Option.bind_eq_some_iff.1 h
      obtain ⟨⟨w2, rs'⟩, hr, h⟩ := Option.bind_eq_some_iff.1 h
      cases h
      obtain ⟨a, -⟩ := step_inv env w w1 op r hi hs
      rcases List.mem_cons.1 hp with hp | hp
      · subst hp
        refine ((run_inv env ops w1 _ rs' a hr).2 p ?_).1
        cases op <;> simp only [step] at hs
        case getParsed =>
          obtain ⟨s1, h1, h2⟩ := Option.bind_eq_some_iff.1 hs
          obtain ⟨⟨q, hq⟩, _⟩ := doParse_fields env w.disk _ _ h1
          cases h2
          show s1.parsed = some (s1.parsed.getD [])
          rw [hq]; rfl
        case parse => obtain ⟨s1, h1, h2⟩ := Option.bind_eq_some_iff.1 hs; cases h2
        case getLicenses => obtain ⟨s1, h1, h2⟩ := Option.bind_eq_some_iff.1 hs; cases h2
        case getLoc => obtain ⟨s1, h1, h2⟩ := Option.bind_eq_some_iff.1 hs; cases h2
        all_goals cases hs
      · exact ih w1 _ rs' a hr hp
  exact gen ops _ w' res (inv_new before path) hr hp

/-- C112: in every history of calls on a new file, all calls that return licenses return those of the parsed languages that the other
calls return, whether the licenses or the languages are asked for first, and whatever is set or changed in between. -/
theorem C112_licenses (env : Env) (before : Byte) (path : List Byte) (disk : Disk) (ops : List Op) (w' : World) (res : List Res)
    (hr : run env ⟨SourceFile.new before path, disk⟩ ops = some (w', res)) :
    (∀ p l, Res.parsed p ∈ res → Res.licenses l ∈ res → l = env.detectLicenses p) ∧
    ∀ l m, Res.licenses l ∈ res → Res.licenses m ∈ res → l = m := by
  have gen : ∀ (ops : List Op) (w w' : World) (res : List Res), Inv w.sf → Licensed env w.sf → run env w ops = some (w', res) →
      ∀ l, Res.licenses l ∈ res → ∃ p, w'.sf.parsed = some p ∧ l = env.detectLicenses p := by
    intro ops
    induction ops with
    | nil => intro w w' res _ _ h; cases h; simp
    | cons op ops ih =>
      intro w w' res hi hl h
      simp only [run] at h
      obtain ⟨⟨w1, r⟩, hs, h⟩ := Option.bind_eq_some_iff.1 h
      obtain ⟨⟨w2, rs'⟩, hr, h⟩ := Option.bind_eq_some_iff.1 h
      cases h
      obtain ⟨a, -⟩ := step_inv env w w1 op r hi hs
      obtain ⟨b, b'⟩ := step_licensed env w w1 op r hl hs
      have fin := (run_inv env ops w1 _ rs' a hr).2
      intro l hm
      rcases List.mem_cons.1 hm with hm | hm
      · obtain ⟨p, e1, e2⟩ := b' l hm.symm
        exact ⟨p, (fin p e1).1, e2⟩
      · exact ih w1 _ rs' a b hr l hm
  have hl := gen ops _ w' res (inv_new before path) (fun l h => by cases h) hr
  refine ⟨?_, ?_⟩
  · intro p l h1 h2
    obtain ⟨q, hq, e⟩ := hl l h2
    have := parsed_end env before path disk ops w' res hr p h1
    rw [hq] at this
    cases this
    exact e
  · intro l m h1 h2
    obtain ⟨p, hp, e1⟩ := hl l h1
    obtain ⟨q, hq, e2⟩ := hl m h2
    rw [hp] at hq
    cases hq
    rw [e1, e2]

/-- C112: in every history, the languages that a Ruby program is told of are those of the line counts, in the same order and each once,
and the breakdown of a language has its line counts. -/
theorem C112_breakdowns (env : Env) (before : Byte) (path : List Byte) (disk : Disk) (ops : List Op) (w' : World) (res : List Res)
    (hr : run env ⟨SourceFile.new before path, disk⟩ ops = some (w', res)) (p : List ParsedLanguage) (l : LocList) (hp : Res.parsed p ∈ res)
    (hl : Res.loc l ∈ res) :
    rubyLanguages p = l.map Loc.language ∧ (rubyLanguages p).Nodup ∧
    (∀ lang, rubyBreakdown p lang = none ↔ lang ∉ rubyLanguages p) ∧
    ∀ lang pl, rubyBreakdown p lang = some pl → pl.name = lang ∧ l.getLoc lang = some ⟨lang, pl.code.count, pl.comments.count, pl.blanksCount, 1⟩ := by
  have hloc := (C13_stable env before path disk ops w' res hr).2.2.1 p l hp hl
  have hn : (p.map ParsedLanguage.name).Nodup := (run_inv env ops _ w' res (inv_new before path) hr).1.nodup p (parsed_end env before path disk ops w' res hr p hp)
  rw [locListOf_eq p hn] at hloc
  subst hloc
  refine ⟨by simp [rubyLanguages], hn, fun lang => ?_, ?_⟩
  · simp [rubyBreakdown, rubyLanguages, List.find?_eq_none]
  · intro lang pl h
    have h1 : pl.name = lang := by simpa [rubyBreakdown] using List.find?_some h
    refine ⟨h1, ?_⟩
    unfold rubyBreakdown at h
    clear hp hr hn hl
    induction p with
    | nil => cases h
    | cons x p ih =>
      rw [List.find?_cons] at h
      rw [List.map_cons, LocList.getLoc]
      by_cases e : x.name = lang
      · rw [show (x.name == lang) = true by simpa using e] at h
        cases h
        rw [if_pos e, e]
      · rw [show (x.name == lang) = false by simpa using e] at h
        rw [if_neg e]
        exact ih h

/-! ### Lists of files -/

theorem detected_same (env : Env) (disk : Disk) {s : SourceFile} (h : s.languageDetected = true) : s.detectLanguage env disk = s := by
  rw [SourceFile.detectLanguage, if_pos h]

theorem each_facts (env : Env) (disk : Disk) : ∀ l : List SourceFile,
    (rubyEachSourceFile env disk l).2 = l.map (fun sf => sf.detectLanguage env disk) ∧
    (rubyEachSourceFile env disk l).1 = (l.map fun sf => sf.detectLanguage env disk).filter fun sf => sf.language.isSome
  | [] => ⟨rfl, rfl⟩
  | sf :: l => by
    obtain ⟨h1, h2⟩ := each_facts env disk l
    simp only [rubyEachSourceFile, h1, h2, List.map_cons, List.filter_cons, true_and]

theorem size_eq (l : List SourceFile) : rubySize l = l.length := by
  have : ∀ (l : List SourceFile) (n : Nat), l.foldl (fun count _ => count + 1) n = n + l.length := by
    intro l
    induction l with
    | nil => intro n; rfl
    | cons a l ih => intro n; rw [List.foldl_cons, ih, List.length_cons]; omega
  rw [rubySize, this, Nat.zero_add]

/-- C112: the files that `each_source_file` yields are, in the order of the list, those with a language, which `get_language` returns
for them then and at any later time; going through the list again yields the same files, even if the disk has changed since. -/
theorem C112_each (env : Env) (disk disk' : Disk) (l : List SourceFile) :
    (rubyEachSourceFile env disk l).1.Sublist (rubyEachSourceFile env disk l).2 ∧
    (∀ sf ∈ (rubyEachSourceFile env disk l).2, sf ∈ (rubyEachSourceFile env disk l).1 ↔
      ∃ w lang, step env ⟨sf, disk'⟩ .getLanguage = some (w, .language (some lang))) ∧
    rubyEachSourceFile env disk' (rubyEachSourceFile env disk l).2 = rubyEachSourceFile env disk l := by
  obtain ⟨h1, h2⟩ := each_facts env disk l
  have twice : ∀ sf : SourceFile, (sf.detectLanguage env disk).detectLanguage env disk' = sf.detectLanguage env disk := by
    intro sf
    have : (sf.detectLanguage env disk).languageDetected = true := by
      unfold SourceFile.detectLanguage
      split
      · assumption
      · rfl
    exact detected_same env disk' this
  refine ⟨by rw [h1, h2]; exact List.filter_sublist, ?_, ?_⟩
  · intro sf hm
    have hm' := hm
    rw [h1] at hm'
    obtain ⟨x, _, rfl⟩ := List.mem_map.1 hm'
    rw [h2, List.mem_filter, ← h1]
    simp only [hm, true_and, step, twice, Option.some.injEq, Prod.mk.injEq, Res.language.injEq]
    constructor
    · intro h
      obtain ⟨lang, hl⟩ := Option.isSome_iff_exists.1 h
      exact ⟨_, lang, rfl, hl⟩
    · rintro ⟨_, lang, _, hl⟩
      rw [hl]; rfl
  · obtain ⟨h3, h4⟩ := each_facts env disk' (rubyEachSourceFile env disk l).2
    have e : (rubyEachSourceFile env disk l).2.map (fun sf => sf.detectLanguage env disk') = (rubyEachSourceFile env disk l).2 := by
      rw [h1, List.map_map]
      exact List.map_congr_left fun sf _ => twice sf
    rw [e] at h3 h4
    refine Prod.ext ?_ h3
    rw [h4, h2, h1]

/-- C112: a directory adds to the size of a list the number of files that can be reached in it, and `each` then yields, after the names
from before, the last part of each of their paths. -/
theorem C112_directory (before : Byte) (l : List SourceFile) (dir : List Byte) (n : Node) (hn : WellNamed n) :
    ∃ paths : List (List Byte), paths.Nodup ∧ (∀ p, p ∈ paths ↔ Lists dir n p) ∧
      rubySize (listAddDirectory before l dir n) = rubySize l + paths.length ∧
      rubyEach (listAddDirectory before l dir n) = rubyEach l ++ paths.map fun p => p.drop (splitPath before p).filename := by
  refine ⟨addDirectory dir n, C15_each_file_once dir n hn, C15_exactly_the_reachable_files dir n, ?_, ?_⟩
  · rw [(C15_appends before l dir n).2, size_eq, size_eq, List.length_append, List.length_map]
  · rw [(C15_appends before l dir n).2]
    unfold rubyEach
    rw [List.map_append, List.map_map]
    rfl

/-- Counts, languages and licenses asked for in another order, with other contents and another language set in between. -/
example : (run sampleEnv sampleWorld [.getLicenses, .setContents [1, 2], .setLanguage "ruby", .getLoc, .getLicenses]).map Prod.snd =
    some [.licenses (sampleEnv.detectLicenses []), .unit, .unit, .loc [⟨"c", 1, 0, 0, 1⟩], .licenses (sampleEnv.detectLicenses [])] ∧
    ((run sampleEnv sampleWorld [.getParsed]).map fun x => x.2.map fun r => match r with
      | .parsed p => (rubyLanguages p, (rubyBreakdown p "c").map (·.code.count), (rubyBreakdown p "ruby").isSome)
      | _ => ([], none, true)) = some [(["c"], some 1, false)] := by decide +kernel

/-- A list of two files, one of which has a language. -/
example : let l := [SourceFile.new 0 [97, 46, 99], SourceFile.new 0 [98, 47, 120, 46, 104]]
    rubySize l = 2 ∧ rubyEach l = [[97, 46, 99], [120, 46, 104]] ∧
    (rubyEachSourceFile { sampleEnv with detect := fun s _ => (if s.filepath.length = 3 then some "c" else none, true) } (fun _ => none) l).1.map
      SourceFile.filepath = [[97, 46, 99]] := by decide +kernel

end Ohcount.SourceFileProps
