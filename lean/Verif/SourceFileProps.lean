import Verif.SourceFile
import Verif.ParsedLanguageProps
/-
Properties C11-C16.
-/

namespace Ohcount.SourceFileProps

open Ohcount

/-! ### C11: path splitting -/

theorem scanBack_le (stop : Byte → Bool) (path : Bytes) (n : Nat) : scanBack stop path n ≤ n := by
  induction n with
  | zero => simp [scanBack]
  | succ n ih =>
    unfold scanBack
    split
    · split <;> omega
    · omega

theorem scanBack_spec (stop : Byte → Bool) (path : Bytes) (n : Nat) (hn : n ≤ path.length) :
    (∀ i b, scanBack stop path n ≤ i → i < n → path[i]? = some b → stop b = false) ∧
    (scanBack stop path n = 0 ∨ ∃ b, path[scanBack stop path n - 1]? = some b ∧ stop b = true) := by
  induction n with
  | zero => simp [scanBack]
  | succ n ih =>
    have hb : path[n]? = some path[n] := List.getElem?_eq_getElem (by omega)
    obtain ⟨h1, h2⟩ := ih (by omega)
    unfold scanBack
    rw [hb]
    dsimp only
    by_cases hs : stop path[n] = true
    · simp only [hs, if_true]
      refine ⟨fun i b h1 h2 => by omega, Or.inr ⟨path[n], ?_, hs⟩⟩
      simpa using hb
    · simp only [hs]
      refine ⟨?_, h2⟩
      intro i b hi hlt hib
      by_cases hin : i = n
      · subst hin
        rw [hb] at hib
        cases hib
        simpa using hs
      · exact h1 i b hi (by omega) hib

/-- Membership in a suffix, by position. -/
theorem mem_drop_iff (path : Bytes) (k : Nat) (b : Byte) :
    b ∈ path.drop k ↔ ∃ i, k ≤ i ∧ path[i]? = some b := by
  rw [List.mem_iff_getElem?]
  constructor
  · rintro ⟨i, hi⟩
    rw [List.getElem?_drop] at hi
    exact ⟨k + i, by omega, hi⟩
  · rintro ⟨i, hk, hi⟩
    refine ⟨i - k, ?_⟩
    rw [List.getElem?_drop, show k + (i - k) = i by omega, hi]

/-- C11, file name and directory.  The file name is the longest suffix without
separators, and directory, separator and file name reassemble the path. -/
theorem C11_filename_and_directory (before : Byte) (path : Bytes) :
    let r := splitPath before path
    r.filename ≤ path.length ∧
    (∀ b ∈ path.drop r.filename, b ≠ chSlash ∧ b ≠ chBackslash) ∧
    (r.filename = 0 ∧ r.dirpath = 0 ∨
      ∃ sep, (sep = chSlash ∨ sep = chBackslash) ∧
        path = path.take r.dirpath ++ sep :: path.drop r.filename) := by
  have hp1 := scanBack_le isSepOrDot path path.length
  have hp2 := scanBack_le isSep path (scanBack isSepOrDot path path.length)
  obtain ⟨a1, a2⟩ := scanBack_spec isSepOrDot path path.length (Nat.le_refl _)
  obtain ⟨b1, b2⟩ := scanBack_spec isSep path (scanBack isSepOrDot path path.length) hp1
  simp only [splitPath]
  refine ⟨by omega, ?_, ?_⟩
  · intro b hb
    rw [mem_drop_iff] at hb
    obtain ⟨i, hi, hib⟩ := hb
    have hlt : i < path.length := by
      by_cases h : i < path.length
      · exact h
      · rw [List.getElem?_eq_none (by omega)] at hib; cases hib
    have : isSep b = false := by
      by_cases h : i < scanBack isSepOrDot path path.length
      · exact b1 i b hi h hib
      · have := a1 i b (by omega) hlt hib
        simp only [isSepOrDot, Bool.or_eq_false_iff] at this
        exact this.2
    simp only [isSep, Bool.or_eq_false_iff, beq_eq_false_iff_ne] at this
    exact this
  · rcases b2 with h | ⟨b, hb, hs⟩
    · left; exact ⟨h, by omega⟩
    · right
      generalize hf : scanBack isSep path (scanBack isSepOrDot path path.length) = f at *
      have hf0 : f ≠ 0 := by
        intro h0
        -- then `path[0 - 1] = path[0]` is a separator at a position the loop passed
        subst h0
        by_cases hz : 0 < scanBack isSepOrDot path path.length
        · have := b1 0 b (by omega) hz hb
          rw [this] at hs; cases hs
        · have hlt : 0 < path.length := by
            by_cases h : 0 < path.length
            · exact h
            · rw [List.getElem?_eq_none (by omega)] at hb; cases hb
          have := a1 0 b (by omega) hlt hb
          simp only [isSepOrDot, Bool.or_eq_false_iff] at this
          rw [this.2] at hs; cases hs
      refine ⟨b, ?_, ?_⟩
      · simpa [isSep] using hs
      · have hlt : f - 1 < path.length := by omega
        rw [List.getElem?_eq_getElem hlt] at hb
        cases hb
        have := List.take_append_drop (f - 1) path
        rw [List.drop_eq_getElem_cons hlt] at this
        rw [show f - 1 + 1 = f by omega] at this
        exact this.symm

/-- C11, extension.  Unless the code reads a dot from before the allocation, the
extension is what follows the last dot of the file name, or empty if the file name
has no dot. -/
theorem C11_extension (before : Byte) (path : Bytes)
    (h : before ≠ chDot ∨ readsBefore path = false) :
    let r := splitPath before path
    r.filename ≤ r.ext ∧ r.ext ≤ path.length ∧
    ((chDot ∉ path.drop r.filename ∧ r.ext = path.length) ∨
     (r.filename < r.ext ∧ path[r.ext - 1]? = some chDot ∧ chDot ∉ path.drop r.ext)) := by
  have hp1 := scanBack_le isSepOrDot path path.length
  have hp2 := scanBack_le isSep path (scanBack isSepOrDot path path.length)
  obtain ⟨a1, a2⟩ := scanBack_spec isSepOrDot path path.length (Nat.le_refl _)
  obtain ⟨b1, b2⟩ := scanBack_spec isSep path (scanBack isSepOrDot path path.length) hp1
  simp only [splitPath]
  unfold readsBefore at h
  -- no dot after the first stop position
  have nodot : chDot ∉ path.drop (scanBack isSepOrDot path path.length) := by
    intro hm
    rw [mem_drop_iff] at hm
    obtain ⟨i, hi, hib⟩ := hm
    have hlt : i < path.length := by
      by_cases h : i < path.length
      · exact h
      · rw [List.getElem?_eq_none (by omega)] at hib; cases hib
    have := a1 i chDot hi hlt hib
    simp [isSepOrDot] at this
  by_cases h0 : scanBack isSepOrDot path path.length = 0
  · have hb : before ≠ chDot := by
      rcases h with h | h
      · exact h
      · simp [h0] at h
    rw [h0] at nodot hp2 ⊢
    simp only [if_true, hb, if_false]
    refine ⟨by omega, Nat.le_refl _, Or.inl ⟨?_, by simp⟩⟩
    have : scanBack isSep path 0 = 0 := by omega
    rw [this]; exact nodot
  · simp only [h0, if_false]
    rcases a2 with h' | ⟨b, hb, hs⟩
    · exact absurd h' h0
    · rw [hb]
      simp only [Option.getD_some]
      by_cases hd : b = chDot
      · subst hd
        simp only [if_true]
        refine ⟨hp2, hp1, Or.inr ⟨?_, hb, nodot⟩⟩
        -- the file name starts at or before the dot
        by_cases he : scanBack isSep path (scanBack isSepOrDot path path.length)
            = scanBack isSepOrDot path path.length
        · exfalso
          rcases b2 with h2 | ⟨b', hb', hs'⟩
          · omega
          · rw [he, hb] at hb'
            cases hb'
            simp [isSep, chDot, chSlash, chBackslash] at hs'
        · omega
      · simp only [hd, if_false]
        refine ⟨by omega, Nat.le_refl _, Or.inl ⟨?_, by simp⟩⟩
        have hsep : isSep b = true := by
          simp only [isSepOrDot, Bool.or_eq_true, beq_iff_eq] at hs
          rcases hs with h | h
          · exact absurd h hd
          · exact h
        have : scanBack isSep path (scanBack isSepOrDot path path.length)
            = scanBack isSepOrDot path path.length := by
          generalize hq : scanBack isSepOrDot path path.length = q at *
          cases q with
          | zero => omega
          | succ q =>
            unfold scanBack
            simp only [Nat.add_sub_cancel] at hb
            rw [hb]; simp [hsep]
        rw [this]; exact nodot

/-- C11.  The code reads a byte before its allocation exactly for paths that contain
neither a dot nor a separator. -/
theorem C11_reads_before_iff (path : Bytes) :
    readsBefore path = true ↔
      ∀ b ∈ path, b ≠ chDot ∧ b ≠ chSlash ∧ b ≠ chBackslash := by
  obtain ⟨a1, a2⟩ := scanBack_spec isSepOrDot path path.length (Nat.le_refl _)
  simp only [readsBefore, beq_iff_eq]
  constructor
  · intro h b hb
    rw [List.mem_iff_getElem?] at hb
    obtain ⟨i, hi⟩ := hb
    have hlt : i < path.length := by
      by_cases h : i < path.length
      · exact h
      · rw [List.getElem?_eq_none (by omega)] at hi; cases hi
    have := a1 i b (by omega) hlt hi
    simp only [isSepOrDot, isSep, Bool.or_eq_false_iff, beq_eq_false_iff_ne] at this
    exact ⟨this.1, this.2.1, this.2.2⟩
  · intro h
    rcases a2 with h2 | ⟨b, hb, hs⟩
    · exact h2
    · exfalso
      have hm : b ∈ path := List.mem_iff_getElem?.2 ⟨_, hb⟩
      obtain ⟨x, y, z⟩ := h b hm
      simp [isSepOrDot, isSep, x, y, z] at hs

/-- "src/a.tar.gz" -/
example : splitPath 0 [115, 114, 99, 47, 97, 46, 116, 97, 114, 46, 103, 122]
    = ⟨10, 4, 3⟩ := by decide +kernel

/-- C11, the defect: for the path `make`, if the byte before the allocation happens to
be a dot, the whole name becomes the extension. -/
theorem C11_extension_defect :
    (splitPath chDot [109, 97, 107, 101]).ext = 0 ∧ (splitPath 0 [109, 97, 107, 101]).ext = 4 := by
  decide +kernel

/-! ### How the calls act on the fields -/

theorem loadContents_fields (d : Disk) (s : SourceFile) :
    let s' := s.loadContents d
    s'.language = s.language ∧ s'.languageDetected = s.languageDetected ∧
    s'.detections = s.detections ∧ s'.parsed = s.parsed ∧ s'.locList = s.locList ∧
    s'.licenses = s.licenses ∧ s'.parses = s.parses := by
  unfold SourceFile.loadContents
  split
  · simp
  · dsimp only; split <;> simp

theorem sizeOf_fields (d : Disk) (s : SourceFile) :
    let s' := s.sizeOf d
    s'.language = s.language ∧ s'.languageDetected = s.languageDetected ∧
    s'.detections = s.detections ∧ s'.parsed = s.parsed ∧ s'.locList = s.locList ∧
    s'.licenses = s.licenses ∧ s'.parses = s.parses := by
  unfold SourceFile.sizeOf
  split
  · exact loadContents_fields d s
  · simp

theorem detectLanguage_fields (env : Env) (d : Disk) (s : SourceFile) :
    let s' := s.detectLanguage env d
    s'.languageDetected = true ∧ s'.parsed = s.parsed ∧ s'.locList = s.locList ∧
    s'.licenses = s.licenses ∧ s'.parses = s.parses ∧
    (s.languageDetected = true → s'.language = s.language ∧ s'.detections = s.detections) ∧
    (s.languageDetected = false → s'.language = (env.detect s d).1 ∧
      s'.detections = s.detections + 1) := by
  unfold SourceFile.detectLanguage
  cases hd : s.languageDetected
  · simp only [Bool.false_eq_true, if_false]
    have h := loadContents_fields d s
    cases (env.detect s d).2
    · simp
    · simp only [if_true]; simp_all
  · simp [hd]

theorem runParser_fields (env : Env) (d : Disk) (s : SourceFile) :
    let s' := (s.runParser env d).1
    s'.languageDetected = true ∧ s'.parsed = s.parsed ∧ s'.locList = s.locList ∧
    s'.licenses = s.licenses ∧ s'.parses = s.parses ∧
    (s.languageDetected = true → s'.language = s.language ∧ s'.detections = s.detections) ∧
    (s.languageDetected = false → s'.language = (env.detect s d).1 ∧
      s'.detections = s.detections + 1) := by
  unfold SourceFile.runParser
  have h := detectLanguage_fields env d s
  dsimp only at h ⊢
  split
  · exact h
  · split
    · have h1 := loadContents_fields d (s.detectLanguage env d)
      have h2 := sizeOf_fields d ((s.detectLanguage env d).loadContents d)
      dsimp only at h1 h2 ⊢
      obtain ⟨a1, a2, a3, a4, a5, a6, a7⟩ := h1
      obtain ⟨b1, b2, b3, b4, b5, b6, b7⟩ := h2
      rw [b1, b2, b3, b4, b5, b6, b7, a1, a2, a3, a4, a5, a6, a7]
      exact h
    · exact h

theorem doParse_fields (env : Env) (d : Disk) (s s' : SourceFile)
    (hs : s.doParse env d = some s') :
    (∃ pls, s'.parsed = some pls) ∧ (∀ pls, s.parsed = some pls → s' = s) ∧
    s'.locList = s.locList ∧ s'.licenses = s.licenses ∧
    (s.languageDetected = true → s'.languageDetected = true ∧ s'.language = s.language ∧
      s'.detections = s.detections) ∧
    (s.languageDetected = false → (s' = s ∨ (s'.languageDetected = true ∧
      s'.language = (env.detect s d).1 ∧ s'.detections = s.detections + 1))) ∧
    (s.parsed = none → s'.parses = s.parses + 1) := by
  unfold SourceFile.doParse at hs
  split at hs
  · rename_i pls hp
    cases hs
    refine ⟨⟨pls, hp⟩, fun _ _ => rfl, rfl, rfl, fun h => ⟨h, rfl, rfl⟩, fun _ => Or.inl rfl, ?_⟩
    intro h; rw [h] at hp; cases hp
  · rename_i hp
    have h := runParser_fields env d s
    rcases hr : s.runParser env d with ⟨s1, reports⟩
    rw [hr] at hs h
    dsimp only at hs h
    rcases hrec : recordAll env.junk (s1.contents.getD []) [] reports with _ | pls
    · rw [hrec] at hs; cases hs
    · rw [hrec] at hs
      cases hs
      obtain ⟨a1, a2, a3, a4, a5, a6, a7⟩ := h
      refine ⟨⟨pls, rfl⟩, ?_, a3, a4, fun h => ⟨a1, (a6 h).1, (a6 h).2⟩,
        fun h => Or.inr ⟨a1, (a7 h).1, (a7 h).2⟩, ?_⟩
      · intro q hq; rw [hp] at hq; cases hq
      · intro _; simp [a5]

/-! ### C12: the language of a file -/

/-- The call sets the language: `set_language` with a known name. -/
def Forces (env : Env) : Op → Bool
  | .setLanguage n => (env.knownName n).isSome
  | _ => false

/-- One call keeps a known language. -/
theorem step_keeps_language (env : Env) (w w' : World) (op : Op) (r : Res)
    (hs : step env w op = some (w', r)) (hd : w.sf.languageDetected = true)
    (hf : Forces env op = false) :
    w'.sf.languageDetected = true ∧ w'.sf.language = w.sf.language ∧
    w'.sf.detections = w.sf.detections ∧ (∀ l, r = .language l → l = w.sf.language) := by
  cases op with
  | setDiskpath p => cases hs; exact ⟨hd, rfl, rfl, fun l h => by cases h⟩
  | setContents c => cases hs; exact ⟨hd, rfl, rfl, fun l h => by cases h⟩
  | diskChange c => cases hs; exact ⟨hd, rfl, rfl, fun l h => by cases h⟩
  | getContents =>
    cases hs
    obtain ⟨a, b, c, _⟩ := loadContents_fields w.disk w.sf
    exact ⟨b ▸ hd, a, c, fun l h => by cases h⟩
  | getSize =>
    cases hs
    obtain ⟨a, b, c, _⟩ := sizeOf_fields w.disk w.sf
    exact ⟨b ▸ hd, a, c, fun l h => by cases h⟩
  | setLanguage n =>
    cases hs
    unfold Forces at hf
    have hn : env.knownName n = none := by simpa using hf
    have : w.sf.setLanguage env n = w.sf := by simp [SourceFile.setLanguage, hn]
    rw [this]
    exact ⟨hd, rfl, rfl, fun l h => by cases h⟩
  | getLanguage =>
    cases hs
    obtain ⟨a, _, _, _, _, b, _⟩ := detectLanguage_fields env w.disk w.sf
    refine ⟨a, (b hd).1, (b hd).2, fun l h => ?_⟩
    injection h with h; rw [← h]; exact (b hd).1
  | parse =>
    simp only [step] at hs
    rcases hp : w.sf.doParse env w.disk with _ | s1
    · rw [hp] at hs; cases hs
    · rw [hp] at hs; cases hs
      obtain ⟨_, _, _, _, h, _⟩ := doParse_fields env w.disk _ _ hp
      obtain ⟨x, y, z⟩ := h hd
      exact ⟨x, y, z, fun l h => by cases h⟩
  | getParsed =>
    simp only [step] at hs
    rcases hp : w.sf.doParse env w.disk with _ | s1
    · rw [hp] at hs; cases hs
    · rw [hp] at hs; cases hs
      obtain ⟨_, _, _, _, h, _⟩ := doParse_fields env w.disk _ _ hp
      obtain ⟨x, y, z⟩ := h hd
      exact ⟨x, y, z, fun l h => by cases h⟩
  | parseWithCallback =>
    simp only [step] at hs
    obtain ⟨a, _, _, _, _, b, _⟩ := runParser_fields env w.disk w.sf
    cases hs
    exact ⟨a, (b hd).1, (b hd).2, fun l h => by cases h⟩
  | getLicenses =>
    simp only [step, SourceFile.computeLicenses] at hs
    split at hs
    · cases hs; exact ⟨hd, rfl, rfl, fun l h => by cases h⟩
    · rcases hp : w.sf.doParse env w.disk with _ | s1
      · rw [hp] at hs; cases hs
      · rw [hp] at hs; cases hs
        obtain ⟨_, _, _, _, h, _⟩ := doParse_fields env w.disk _ _ hp
        obtain ⟨x, y, z⟩ := h hd
        exact ⟨x, y, z, fun l h => by cases h⟩
  | getLoc =>
    simp only [step, SourceFile.computeLoc] at hs
    split at hs
    · cases hs; exact ⟨hd, rfl, rfl, fun l h => by cases h⟩
    · rcases hp : w.sf.doParse env w.disk with _ | s1
      · rw [hp] at hs; cases hs
      · rw [hp] at hs; cases hs
        obtain ⟨_, _, _, _, h, _⟩ := doParse_fields env w.disk _ _ hp
        obtain ⟨x, y, z⟩ := h hd
        exact ⟨x, y, z, fun l h => by cases h⟩

theorem run_keeps_language (env : Env) (ops : List Op) :
    ∀ (w w' : World) (rs : List Res), run env w ops = some (w', rs) →
    w.sf.languageDetected = true → (∀ op ∈ ops, Forces env op = false) →
    w'.sf.languageDetected = true ∧ w'.sf.language = w.sf.language ∧
    w'.sf.detections = w.sf.detections ∧ (∀ l, .language l ∈ rs → l = w.sf.language) := by
  induction ops with
  | nil => intro w w' rs h hd _; cases h; exact ⟨hd, rfl, rfl, by simp⟩
  | cons op ops ih =>
    intro w w' rs h hd hf
    simp only [run] at h
    rcases hs : step env w op with _ | ⟨w1, r⟩
    · rw [hs] at h; cases h
    · rw [hs] at h
      simp only [Option.bind_some] at h
      rcases hr : run env w1 ops with _ | ⟨w2, rs'⟩
      · rw [hr] at h; cases h
      · rw [hr] at h
        cases h
        obtain ⟨a, b, c, e⟩ := step_keeps_language env w w1 op r hs hd (hf op (by simp))
        obtain ⟨a', b', c', e'⟩ := ih w1 _ rs' hr a (fun o ho => hf o (by simp [ho]))
        refine ⟨a', b'.trans b, c'.trans c, ?_⟩
        intro l hl
        rcases List.mem_cons.1 hl with hl | hl
        · exact e l hl.symm
        · exact (e' l hl).trans b

/-- C12.  After setting a known language, every later query returns that language and
detection does not run any more, whatever the other calls are, as long as no
other known language is set. -/
theorem C12_forced (env : Env) (w w' : World) (name canonical : String) (ops : List Op)
    (res : List Res)
    (hk : env.knownName name = some canonical)
    (hr : run env w (.setLanguage name :: ops) = some (w', res))
    (hf : ∀ op ∈ ops, Forces env op = false) :
    (∀ l, Res.language l ∈ res → l = some canonical) ∧
    w'.sf.detections = w.sf.detections := by
  simp only [run, step, Option.bind_some] at hr
  rcases hr' : run env ⟨w.sf.setLanguage env name, w.disk⟩ ops with _ | ⟨w2, rs'⟩
  · rw [hr'] at hr; cases hr
  · rw [hr'] at hr
    cases hr
    obtain ⟨_, _, c, e⟩ := run_keeps_language env ops _ _ rs' hr'
      (by simp [SourceFile.setLanguage, hk]) hf
    have hl : (w.sf.setLanguage env name).language = some canonical := by
      simp [SourceFile.setLanguage, hk]
    have hdn : (w.sf.setLanguage env name).detections = w.sf.detections := by
      simp [SourceFile.setLanguage, hk]
    refine ⟨?_, c.trans hdn⟩
    intro l hl'
    rcases List.mem_cons.1 hl' with h | h
    · cases h
    · rw [e l h]; exact hl

/-- C12.  Setting an unknown name changes nothing at all. -/
theorem C12_unknown_name_ignored (env : Env) (w : World) (name : String)
    (hk : env.knownName name = none) :
    step env w (.setLanguage name) = some (w, .unit) := by
  simp [step, SourceFile.setLanguage, hk]

/-- One call on a file whose language has not been determined. -/
theorem step_fresh (env : Env) (w w' : World) (op : Op) (r : Res)
    (hs : step env w op = some (w', r)) (hd : w.sf.languageDetected = false)
    (hf : Forces env op = false) :
    (w'.sf.languageDetected = false ∧ w'.sf.detections = w.sf.detections ∧
      ∀ l, r ≠ .language l) ∨
    (w'.sf.languageDetected = true ∧ w'.sf.detections = w.sf.detections + 1 ∧
      ∀ l, r = .language l → l = w'.sf.language) := by
  cases op with
  | setDiskpath p => cases hs; exact Or.inl ⟨hd, rfl, fun l h => by cases h⟩
  | setContents c => cases hs; exact Or.inl ⟨hd, rfl, fun l h => by cases h⟩
  | diskChange c => cases hs; exact Or.inl ⟨hd, rfl, fun l h => by cases h⟩
  | getContents =>
    cases hs
    obtain ⟨a, b, c, _⟩ := loadContents_fields w.disk w.sf
    exact Or.inl ⟨b ▸ hd, c, fun l h => by cases h⟩
  | getSize =>
    cases hs
    obtain ⟨a, b, c, _⟩ := sizeOf_fields w.disk w.sf
    exact Or.inl ⟨b ▸ hd, c, fun l h => by cases h⟩
  | setLanguage n =>
    cases hs
    unfold Forces at hf
    have hn : env.knownName n = none := by simpa using hf
    have : w.sf.setLanguage env n = w.sf := by simp [SourceFile.setLanguage, hn]
    rw [this]
    exact Or.inl ⟨hd, rfl, fun l h => by cases h⟩
  | getLanguage =>
    cases hs
    obtain ⟨a, _, _, _, _, _, b⟩ := detectLanguage_fields env w.disk w.sf
    refine Or.inr ⟨a, (b hd).2, fun l h => ?_⟩
    injection h with h; exact h.symm
  | parse =>
    simp only [step] at hs
    rcases hp : w.sf.doParse env w.disk with _ | s1
    · rw [hp] at hs; cases hs
    · rw [hp] at hs; cases hs
      obtain ⟨_, _, _, _, _, h, _⟩ := doParse_fields env w.disk _ _ hp
      rcases h hd with h | h
      · subst h; exact Or.inl ⟨hd, rfl, fun l h => by cases h⟩
      · exact Or.inr ⟨h.1, h.2.2, fun l h => by cases h⟩
  | getParsed =>
    simp only [step] at hs
    rcases hp : w.sf.doParse env w.disk with _ | s1
    · rw [hp] at hs; cases hs
    · rw [hp] at hs; cases hs
      obtain ⟨_, _, _, _, _, h, _⟩ := doParse_fields env w.disk _ _ hp
      rcases h hd with h | h
      · subst h; exact Or.inl ⟨hd, rfl, fun l h => by cases h⟩
      · exact Or.inr ⟨h.1, h.2.2, fun l h => by cases h⟩
  | parseWithCallback =>
    simp only [step] at hs
    obtain ⟨a, _, _, _, _, _, b⟩ := runParser_fields env w.disk w.sf
    cases hs
    exact Or.inr ⟨a, (b hd).2, fun l h => by cases h⟩
  | getLicenses =>
    simp only [step, SourceFile.computeLicenses] at hs
    split at hs
    · cases hs; exact Or.inl ⟨hd, rfl, fun l h => by cases h⟩
    · rcases hp : w.sf.doParse env w.disk with _ | s1
      · rw [hp] at hs; cases hs
      · rw [hp] at hs; cases hs
        obtain ⟨_, _, _, _, _, h, _⟩ := doParse_fields env w.disk _ _ hp
        rcases h hd with h | h
        · subst h; exact Or.inl ⟨hd, rfl, fun l h => by cases h⟩
        · exact Or.inr ⟨h.1, h.2.2, fun l h => by cases h⟩
  | getLoc =>
    simp only [step, SourceFile.computeLoc] at hs
    split at hs
    · cases hs; exact Or.inl ⟨hd, rfl, fun l h => by cases h⟩
    · rcases hp : w.sf.doParse env w.disk with _ | s1
      · rw [hp] at hs; cases hs
      · rw [hp] at hs; cases hs
        obtain ⟨_, _, _, _, _, h, _⟩ := doParse_fields env w.disk _ _ hp
        rcases h hd with h | h
        · subst h; exact Or.inl ⟨hd, rfl, fun l h => by cases h⟩
        · exact Or.inr ⟨h.1, h.2.2, fun l h => by cases h⟩

/-- C12.  On a new file whose language is never set, detection runs at most once and all
queries agree, for every history of calls (including changes of the disk and of
the contents in between). -/
theorem C12_detected_once (env : Env) (before : Byte) (path : Bytes) (disk : Disk)
    (ops : List Op) (w' : World) (res : List Res)
    (hr : run env ⟨SourceFile.new before path, disk⟩ ops = some (w', res))
    (hf : ∀ op ∈ ops, Forces env op = false) :
    w'.sf.detections ≤ 1 ∧
    ∀ l l', Res.language l ∈ res → Res.language l' ∈ res → l = l' := by
  have gen : ∀ (ops : List Op) (w w' : World) (res : List Res),
      run env w ops = some (w', res) → (∀ op ∈ ops, Forces env op = false) →
      w.sf.languageDetected = false →
      w'.sf.detections ≤ w.sf.detections + 1 ∧
      ∀ l l', Res.language l ∈ res → Res.language l' ∈ res → l = l' := by
    intro ops
    induction ops with
    | nil => intro w w' res h _ _; cases h; simp
    | cons op ops ih =>
      intro w w' res h hf hd
      simp only [run] at h
      rcases hs : step env w op with _ | ⟨w1, r⟩
      · rw [hs] at h; cases h
      · rw [hs] at h
        simp only [Option.bind_some] at h
        rcases hr : run env w1 ops with _ | ⟨w2, rs'⟩
        · rw [hr] at h; cases h
        · rw [hr] at h
          cases h
          rcases step_fresh env w w1 op r hs hd (hf op (by simp)) with ⟨a, b, c⟩ | ⟨a, b, c⟩
          · obtain ⟨x, y⟩ := ih w1 _ rs' hr (fun o ho => hf o (by simp [ho])) a
            dsimp only
            refine ⟨by omega, ?_⟩
            intro l l' hl hl'
            rcases List.mem_cons.1 hl with hl | hl
            · exact absurd hl.symm (c l)
            · rcases List.mem_cons.1 hl' with hl' | hl'
              · exact absurd hl'.symm (c l')
              · exact y l l' hl hl'
          · obtain ⟨_, _, z, e⟩ := run_keeps_language env ops w1 _ rs' hr a
              (fun o ho => hf o (by simp [ho]))
            dsimp only
            refine ⟨by omega, ?_⟩
            have all : ∀ l, Res.language l ∈ r :: rs' → l = w1.sf.language := by
              intro l hl
              rcases List.mem_cons.1 hl with hl | hl
              · exact c l hl.symm
              · exact e l hl
            intro l l' hl hl'
            rw [all l hl, all l' hl']
  exact gen ops _ w' res hr hf rfl

/-- An environment for the examples: detection says "c" for every file and looks at the
contents; the parser reports the whole buffer as one line of code. -/
def sampleEnv : Env where
  detect := fun _ _ => (some "c", true)
  knownName := fun n => if n = "c" ∨ n = "ruby" then some n else none
  hasParser := fun _ => true
  parse := fun lang c _ => match c with
    | none => []
    | some c => [⟨lang, .lcode, 0, c.length⟩]
  detectLicenses := fun _ => []
  junk := 0

def sampleWorld : World := ⟨SourceFile.new 0 [97, 46, 99], fun _ => some [120, 10]⟩

example : (run sampleEnv sampleWorld [.setLanguage "ruby", .parse, .setContents [1], .getLanguage]).map
    Prod.snd = some [.unit, .unit, .unit, .language (some "ruby")] := by decide +kernel

example : (run sampleEnv sampleWorld [.getLanguage, .getLoc, .setContents [1], .getLanguage]).map
    Prod.snd = some [.language (some "c"), .loc [⟨"c", 1, 0, 0, 1⟩], .unit,
      .language (some "c")] := by decide +kernel

/-! ### C13: results are stable -/

/-- Invariant of every reachable state: line counts, once computed, are those of the
parsed languages; languages are parsed at most once; no language is listed twice. -/
structure Inv (s : SourceFile) : Prop where
  loc : ∀ l, s.locList = some l → ∃ pls, s.parsed = some pls ∧ l = locListOf pls
  once : (s.parsed = none → s.parses = 0) ∧ (∀ pls, s.parsed = some pls → s.parses = 1)
  nodup : ∀ pls, s.parsed = some pls → (pls.map ParsedLanguage.name).Nodup

theorem recordLine_name (contents : List Byte) (pl pl' : ParsedLanguage) (r : Report)
    (h : recordLine contents pl r = some pl') : pl'.name = pl.name := by
  unfold recordLine at h
  cases hk : r.kind with
  | lblank => rw [hk] at h; cases h; rfl
  | lcode =>
    rw [hk] at h
    dsimp only at h
    split at h
    · cases h
    · simp only [ParsedLanguage.addCode, Option.map_eq_some_iff] at h
      obtain ⟨b, _, rfl⟩ := h; rfl
  | lcomment =>
    rw [hk] at h
    dsimp only at h
    split at h
    · cases h
    · simp only [ParsedLanguage.addComment, Option.map_eq_some_iff] at h
      obtain ⟨b, _, rfl⟩ := h; rfl

/-- A callback keeps the list of names or appends the reported language. -/
theorem callback_names (junk : Byte) (contents : List Byte) (r : Report) :
    ∀ (pls pls' : List ParsedLanguage), parserCallback junk contents pls r = some pls' →
    pls'.map ParsedLanguage.name = pls.map ParsedLanguage.name ∨
    (r.lang ∉ pls.map ParsedLanguage.name ∧
      pls'.map ParsedLanguage.name = pls.map ParsedLanguage.name ++ [r.lang]) := by
  intro pls
  induction pls with
  | nil =>
    intro pls' h
    simp only [parserCallback, Option.map_eq_some_iff] at h
    obtain ⟨pl, hpl, rfl⟩ := h
    right
    simp [recordLine_name contents _ pl r hpl, ParsedLanguage.new]
  | cons pl rest ih =>
    intro pls' h
    unfold parserCallback at h
    split at h
    · simp only [Option.map_eq_some_iff] at h
      obtain ⟨pl', hpl, rfl⟩ := h
      left
      simp [recordLine_name contents _ pl' r hpl]
    · rename_i hne
      simp only [Option.map_eq_some_iff] at h
      obtain ⟨rest', hr, rfl⟩ := h
      rcases ih rest' hr with h | ⟨h1, h2⟩
      · left; simp [h]
      · right
        refine ⟨?_, by simp [h2]⟩
        simp only [List.map_cons, List.mem_cons, not_or]
        exact ⟨fun h => hne h.symm, h1⟩

theorem recordAll_nodup (junk : Byte) (contents : List Byte) (rs : List Report) :
    ∀ (pls pls' : List ParsedLanguage), recordAll junk contents pls rs = some pls' →
    (pls.map ParsedLanguage.name).Nodup → (pls'.map ParsedLanguage.name).Nodup := by
  induction rs with
  | nil => intro pls pls' h hn; cases h; exact hn
  | cons r rs ih =>
    intro pls pls' h hn
    simp only [recordAll] at h
    rcases hc : parserCallback junk contents pls r with _ | pls1
    · rw [hc] at h; cases h
    · rw [hc] at h
      refine ih pls1 pls' h ?_
      rcases callback_names junk contents r pls pls1 hc with h | ⟨h1, h2⟩
      · rw [h]; exact hn
      · rw [h2, List.nodup_append]
        refine ⟨hn, by simp, ?_⟩
        intro a ha b hb hab
        simp at hb; subst hb; subst hab; exact h1 ha

theorem doParse_inv (env : Env) (d : Disk) (s s' : SourceFile) (hi : Inv s)
    (h : s.doParse env d = some s') : Inv s' := by
  have hf := doParse_fields env d s s' h
  rcases hp : s.parsed with _ | pls
  · obtain ⟨⟨pls', hp'⟩, _, hl, _, _, _, hc⟩ := hf
    have hloc : s.locList = none := by
      rcases hq : s.locList with _ | l
      · rfl
      · obtain ⟨q, hq', _⟩ := hi.loc l hq; rw [hp] at hq'; cases hq'
    refine ⟨?_, ⟨?_, ?_⟩, ?_⟩
    · intro l hl'; rw [hl, hloc] at hl'; cases hl'
    · intro hn; rw [hp'] at hn; cases hn
    · intro q _; rw [hc hp, hi.once.1 hp]
    · intro q hq
      unfold SourceFile.doParse at h
      rw [hp] at h
      rcases hr : s.runParser env d with ⟨s1, reports⟩
      rw [hr] at h
      dsimp only at h
      rcases hrec : recordAll env.junk (s1.contents.getD []) [] reports with _ | pls
      · rw [hrec] at h; cases h
      · rw [hrec] at h
        cases h
        cases hq
        exact recordAll_nodup _ _ _ _ _ hrec (by simp)
  · have := hf.2.1 pls hp
    subst this; exact hi

/-- Fields `parsed` and `locList` determine the invariant. -/
theorem inv_of_same (s s' : SourceFile) (hi : Inv s) (h1 : s'.parsed = s.parsed)
    (h2 : s'.locList = s.locList) (h3 : s'.parses = s.parses) : Inv s' := by
  refine ⟨?_, ?_, ?_⟩
  · rw [h1, h2]; exact hi.loc
  · rw [h1, h3]; exact hi.once
  · rw [h1]; exact hi.nodup

/-- One call preserves the invariant and never changes a result once computed. -/
theorem step_inv (env : Env) (w w' : World) (op : Op) (r : Res) (hi : Inv w.sf)
    (hs : step env w op = some (w', r)) :
    Inv w'.sf ∧
    (∀ pls, w.sf.parsed = some pls → w'.sf.parsed = some pls ∧
      (∀ q, r = .parsed q → q = pls) ∧ (∀ l, r = .loc l → l = locListOf pls)) := by
  have fromParse : ∀ s1, w.sf.doParse env w.disk = some s1 → Inv s1 ∧
      (∀ pls, w.sf.parsed = some pls → s1.parsed = some pls) := by
    intro s1 h
    refine ⟨doParse_inv env w.disk _ _ hi h, fun pls hp => ?_⟩
    have := (doParse_fields env w.disk _ _ h).2.1 pls hp
    rw [this]; exact hp
  have same : ∀ s1 : SourceFile, s1.parsed = w.sf.parsed → s1.locList = w.sf.locList →
      s1.parses = w.sf.parses →
      Inv s1 ∧ (∀ pls, w.sf.parsed = some pls → s1.parsed = some pls) :=
    fun s1 h1 h2 h3 => ⟨inv_of_same _ _ hi h1 h2 h3, fun pls hp => h1.trans hp⟩
  cases op with
  | setDiskpath p =>
    cases hs
    obtain ⟨a, b⟩ := same { w.sf with diskpath := some p } rfl rfl rfl
    exact ⟨a, fun pls hp => ⟨b pls hp, fun q h => (by cases h), fun q h => (by cases h)⟩⟩
  | setContents c =>
    cases hs
    obtain ⟨a, b⟩ := same (w.sf.setContents c) rfl rfl rfl
    exact ⟨a, fun pls hp => ⟨b pls hp, fun q h => (by cases h), fun q h => (by cases h)⟩⟩
  | diskChange d =>
    cases hs
    exact ⟨hi, fun pls hp => ⟨hp, fun q h => (by cases h), fun q h => (by cases h)⟩⟩
  | getContents =>
    cases hs
    obtain ⟨_, _, _, x, y, _, z⟩ := loadContents_fields w.disk w.sf
    obtain ⟨a, b⟩ := same _ x y z
    exact ⟨a, fun pls hp => ⟨b pls hp, fun q h => (by cases h), fun q h => (by cases h)⟩⟩
  | getSize =>
    cases hs
    obtain ⟨_, _, _, x, y, _, z⟩ := sizeOf_fields w.disk w.sf
    obtain ⟨a, b⟩ := same _ x y z
    exact ⟨a, fun pls hp => ⟨b pls hp, fun q h => (by cases h), fun q h => (by cases h)⟩⟩
  | setLanguage n =>
    cases hs
    have : (w.sf.setLanguage env n).parsed = w.sf.parsed ∧
        (w.sf.setLanguage env n).locList = w.sf.locList ∧
        (w.sf.setLanguage env n).parses = w.sf.parses := by
      unfold SourceFile.setLanguage; split <;> simp
    obtain ⟨a, b⟩ := same _ this.1 this.2.1 this.2.2
    exact ⟨a, fun pls hp => ⟨b pls hp, fun q h => (by cases h), fun q h => (by cases h)⟩⟩
  | getLanguage =>
    cases hs
    obtain ⟨_, x, y, _, z, _⟩ := detectLanguage_fields env w.disk w.sf
    obtain ⟨a, b⟩ := same _ x y z
    exact ⟨a, fun pls hp => ⟨b pls hp, fun q h => (by cases h), fun q h => (by cases h)⟩⟩
  | parseWithCallback =>
    cases hs
    obtain ⟨_, x, y, _, z, _⟩ := runParser_fields env w.disk w.sf
    obtain ⟨a, b⟩ := same _ x y z
    exact ⟨a, fun pls hp => ⟨b pls hp, fun q h => (by cases h), fun q h => (by cases h)⟩⟩
  | parse =>
    simp only [step] at hs
    rcases hp : w.sf.doParse env w.disk with _ | s1
    · rw [hp] at hs; cases hs
    · rw [hp] at hs; cases hs
      obtain ⟨a, b⟩ := fromParse s1 hp
      exact ⟨a, fun pls hp => ⟨b pls hp, fun q h => (by cases h), fun q h => (by cases h)⟩⟩
  | getParsed =>
    simp only [step] at hs
    rcases hp : w.sf.doParse env w.disk with _ | s1
    · rw [hp] at hs; cases hs
    · rw [hp] at hs; cases hs
      obtain ⟨a, b⟩ := fromParse s1 hp
      refine ⟨a, fun pls hp => ⟨b pls hp, fun q h => ?_, fun q h => (by cases h)⟩⟩
      injection h with h
      rw [← h, b pls hp]; rfl
  | getLicenses =>
    simp only [step, SourceFile.computeLicenses] at hs
    split at hs
    · cases hs
      exact ⟨hi, fun pls hp => ⟨hp, fun q h => (by cases h), fun q h => (by cases h)⟩⟩
    · rcases hp : w.sf.doParse env w.disk with _ | s1
      · rw [hp] at hs; cases hs
      · rw [hp] at hs; cases hs
        obtain ⟨a, b⟩ := fromParse s1 hp
        exact ⟨inv_of_same _ _ a rfl rfl rfl,
          fun pls hp => ⟨b pls hp, fun q h => (by cases h), fun q h => (by cases h)⟩⟩
  | getLoc =>
    simp only [step, SourceFile.computeLoc] at hs
    split at hs
    · rename_i l hl
      cases hs
      refine ⟨hi, fun pls hp => ⟨hp, fun q h => (by cases h), fun q h => ?_⟩⟩
      injection h with h
      obtain ⟨pls', hp', e⟩ := hi.loc l hl
      rw [hp] at hp'; cases hp'
      rw [← h, hl, Option.getD_some]; exact e
    · rcases hp : w.sf.doParse env w.disk with _ | s1
      · rw [hp] at hs; cases hs
      · rw [hp] at hs; cases hs
        obtain ⟨a, b⟩ := fromParse s1 hp
        obtain ⟨⟨pls1, hp1⟩, _⟩ := doParse_fields env w.disk _ _ hp
        refine ⟨⟨?_, a.once, a.nodup⟩, fun pls hp => ⟨b pls hp, fun q h => (by cases h), fun q h => ?_⟩⟩
        · intro l hl
          injection hl with hl
          exact ⟨pls1, hp1, by rw [← hl, hp1]; rfl⟩
        · injection h with h
          have := b pls hp
          simp only [this, Option.getD_some] at h
          exact h.symm

theorem run_inv (env : Env) (ops : List Op) :
    ∀ (w w' : World) (rs : List Res), Inv w.sf → run env w ops = some (w', rs) →
    Inv w'.sf ∧
    (∀ pls, w.sf.parsed = some pls → w'.sf.parsed = some pls ∧
      (∀ q, .parsed q ∈ rs → q = pls) ∧ (∀ l, .loc l ∈ rs → l = locListOf pls)) := by
  induction ops with
  | nil => intro w w' rs hi h; cases h; exact ⟨hi, fun pls hp => ⟨hp, by simp, by simp⟩⟩
  | cons op ops ih =>
    intro w w' rs hi h
    simp only [run] at h
    rcases hs : step env w op with _ | ⟨w1, r⟩
    · rw [hs] at h; cases h
    · rw [hs] at h
      simp only [Option.bind_some] at h
      rcases hr : run env w1 ops with _ | ⟨w2, rs'⟩
      · rw [hr] at h; cases h
      · rw [hr] at h
        cases h
        obtain ⟨a, b⟩ := step_inv env w w1 op r hi hs
        obtain ⟨a', b'⟩ := ih w1 _ rs' a hr
        refine ⟨a', fun pls hp => ?_⟩
        obtain ⟨x, y, z⟩ := b pls hp
        obtain ⟨x', y', z'⟩ := b' pls x
        refine ⟨x', ?_, ?_⟩
        · intro q hq
          rcases List.mem_cons.1 hq with hq | hq
          · exact y q hq.symm
          · exact y' q hq
        · intro l hl
          rcases List.mem_cons.1 hl with hl | hl
          · exact z l hl.symm
          · exact z' l hl

theorem inv_new (before : Byte) (path : Bytes) : Inv (SourceFile.new before path) :=
  ⟨(fun l h => by cases h), ⟨fun _ => rfl, fun pls h => by cases h⟩, (fun pls h => by cases h)⟩

/-- A source file in a state some history of calls leads to. -/
def Reachable (env : Env) (s : SourceFile) : Prop :=
  ∃ before path disk ops w rs,
    run env ⟨SourceFile.new before path, disk⟩ ops = some (w, rs) ∧ w.sf = s

theorem reachable_inv (env : Env) (s : SourceFile) (h : Reachable env s) : Inv s := by
  obtain ⟨before, path, disk, ops, w, rs, hr, rfl⟩ := h
  exact (run_inv env ops _ _ rs (inv_new before path) hr).1

/-- C13.  In every history of calls on a new file, all calls that return parsed languages
return the same ones, all calls that return line counts return the counts of those
languages, and the file is parsed at most once. -/
theorem C13_stable (env : Env) (before : Byte) (path : Bytes) (disk : Disk)
    (ops : List Op) (w' : World) (res : List Res)
    (hr : run env ⟨SourceFile.new before path, disk⟩ ops = some (w', res)) :
    w'.sf.parses ≤ 1 ∧
    (∀ p q, Res.parsed p ∈ res → Res.parsed q ∈ res → p = q) ∧
    (∀ p l, Res.parsed p ∈ res → Res.loc l ∈ res → l = locListOf p) ∧
    (∀ l m, Res.loc l ∈ res → Res.loc m ∈ res → l = m) := by
  -- the first result fixes `parsed`; use the final state as the reference
  have gen : ∀ (ops : List Op) (w w' : World) (res : List Res), Inv w.sf →
      run env w ops = some (w', res) →
      (∀ p, Res.parsed p ∈ res → w'.sf.parsed = some p) ∧
      (∀ l, Res.loc l ∈ res → ∃ p, w'.sf.parsed = some p ∧ l = locListOf p) := by
    intro ops
    induction ops with
    | nil => intro w w' res _ h; cases h; simp
    | cons op ops ih =>
      intro w w' res hi h
      simp only [run] at h
      rcases hs : step env w op with _ | ⟨w1, r⟩
      · rw [hs] at h; cases h
      · rw [hs] at h
        simp only [Option.bind_some] at h
        rcases hr : run env w1 ops with _ | ⟨w2, rs'⟩
        · rw [hr] at h; cases h
        · rw [hr] at h
          cases h
          obtain ⟨a, b⟩ := step_inv env w w1 op r hi hs
          obtain ⟨x, y⟩ := ih w1 _ rs' a hr
          have fin := (run_inv env ops w1 _ rs' a hr).2
          refine ⟨?_, ?_⟩
          · intro p hp
            rcases List.mem_cons.1 hp with hp | hp
            · subst hp
              -- the call was `getParsed`
              have h1 : w1.sf.parsed = some p := by
                cases op <;> simp only [step] at hs
                case getParsed =>
                  rcases hq : w.sf.doParse env w.disk with _ | s1
                  · rw [hq] at hs; cases hs
                  · rw [hq] at hs
                    simp only [Option.bind_some, Option.some.injEq, Prod.mk.injEq,
                      Res.parsed.injEq] at hs
                    obtain ⟨rfl, rfl⟩ := hs
                    obtain ⟨⟨q, hq'⟩, _⟩ := doParse_fields env w.disk _ _ hq
                    dsimp only
                    rw [hq']; rfl
                case parse =>
                  rcases hq : w.sf.doParse env w.disk with _ | s1
                  · rw [hq] at hs; cases hs
                  · rw [hq] at hs; cases hs
                case getLicenses =>
                  rcases hq : w.sf.computeLicenses env w.disk with _ | s1
                  · rw [hq] at hs; cases hs
                  · rw [hq] at hs; cases hs
                case getLoc =>
                  rcases hq : w.sf.computeLoc env w.disk with _ | s1
                  · rw [hq] at hs; cases hs
                  · rw [hq] at hs; cases hs
                all_goals cases hs
              exact (fin p h1).1
            · exact x p hp
          · intro l hl
            rcases List.mem_cons.1 hl with hl | hl
            · subst hl
              have h1 : ∃ p, w1.sf.parsed = some p ∧ l = locListOf p := by
                cases op <;> simp only [step] at hs
                case getLoc =>
                  rcases hq : w.sf.computeLoc env w.disk with _ | s1
                  · rw [hq] at hs; cases hs
                  · rw [hq] at hs
                    simp only [Option.bind_some, Option.some.injEq, Prod.mk.injEq,
                      Res.loc.injEq] at hs
                    obtain ⟨rfl, rfl⟩ := hs
                    have hsome : ∃ l, s1.locList = some l := by
                      unfold SourceFile.computeLoc at hq
                      split at hq
                      · rename_i l0 hl0; cases hq; exact ⟨l0, hl0⟩
                      · rcases hq2 : w.sf.doParse env w.disk with _ | s2
                        · rw [hq2] at hq; cases hq
                        · rw [hq2] at hq; cases hq; exact ⟨_, rfl⟩
                    obtain ⟨l', hl'⟩ := hsome
                    obtain ⟨p, hp, e⟩ := a.loc l' hl'
                    exact ⟨p, hp, by rw [hl']; exact e⟩
                case getParsed =>
                  rcases hq : w.sf.doParse env w.disk with _ | s1
                  · rw [hq] at hs; cases hs
                  · rw [hq] at hs; cases hs
                case parse =>
                  rcases hq : w.sf.doParse env w.disk with _ | s1
                  · rw [hq] at hs; cases hs
                  · rw [hq] at hs; cases hs
                case getLicenses =>
                  rcases hq : w.sf.computeLicenses env w.disk with _ | s1
                  · rw [hq] at hs; cases hs
                  · rw [hq] at hs; cases hs
                all_goals cases hs
              obtain ⟨p, hp, e⟩ := h1
              exact ⟨p, (fin p hp).1, e⟩
            · exact y l hl
  obtain ⟨hp, hl⟩ := gen ops _ w' res (inv_new before path) hr
  have hinv := (run_inv env ops _ w' res (inv_new before path) hr).1
  refine ⟨?_, ?_, ?_, ?_⟩
  · rcases hq : w'.sf.parsed with _ | pls
    · rw [hinv.once.1 hq]; omega
    · rw [hinv.once.2 pls hq]; omega
  · intro p q h1 h2
    have := (hp p h1).symm.trans (hp q h2)
    injection this
  · intro p l h1 h2
    obtain ⟨q, hq, e⟩ := hl l h2
    rw [hp p h1] at hq; cases hq; exact e
  · intro l m h1 h2
    obtain ⟨p, hp', e⟩ := hl l h1
    obtain ⟨q, hq, e'⟩ := hl m h2
    rw [hp'] at hq; cases hq; rw [e, e']

/-- Non-vacuity: counts are the same before and after the contents, the language and the
disk are changed. -/
example : (run sampleEnv sampleWorld [.getLoc, .setContents [1, 2], .setLanguage "ruby", .parse,
      .diskChange (fun _ => none), .getLoc]).map Prod.snd
    = some [.loc [⟨"c", 1, 0, 0, 1⟩], .unit, .unit, .unit, .unit, .loc [⟨"c", 1, 0, 0, 1⟩]] := by
  decide +kernel

/-! ### C14: the contents of a file -/

/-- C14 as a user expects it: after `set_contents`, and until the next one, every query
for the contents returns them. -/
def C14_full : Prop :=
  ∀ (env : Env) (w w' : World) (c : Bytes) (ops : List Op) (res : List Res),
    (0 : Byte) ∉ c →
    (∀ op ∈ ops, ∀ c', op ≠ .setContents c') →
    run env w (.setContents c :: ops) = some (w', res) →
    ∀ r, Res.contents r ∈ res → r = some c

/-- C14 is false: parsing the file throws the contents away, the next query reads the
file on disk. -/
theorem C14_negation : ¬ C14_full := by
  intro h
  have := h sampleEnv sampleWorld _ [121] [.getLoc, .getContents] _ (by decide) (by
    intro op hop c'
    simp only [List.mem_cons, List.not_mem_nil, or_false] at hop
    rcases hop with rfl | rfl <;> intro h <;> cases h) rfl (some [120, 10]) (by decide)
  revert this
  decide

/-- Calls that may parse the file. -/
def mayParse : Op → Bool
  | .parse | .getParsed | .getLoc | .getLicenses => true
  | _ => false

/-- The contents are `c` and their size is known. -/
def Holds (w : World) (c : Bytes) : Prop := w.sf.contents = some c ∧ w.sf.size = c.length

theorem load_id (d : Disk) (s : SourceFile) (c : Bytes) (h : s.contents = some c) :
    s.loadContents d = s := by
  unfold SourceFile.loadContents; rw [h]

theorem step_contents (env : Env) (w w' : World) (op : Op) (r : Res) (c : Bytes)
    (hs : step env w op = some (w', r)) (hc : Holds w c) (hne : ∀ c', op ≠ .setContents c')
    (hp : mayParse op = false ∨ ∃ pls, w.sf.parsed = some pls) :
    Holds w' c ∧ (∀ q, r = .contents q → q = some c) ∧ (∀ n, r = .size n → n = c.length) ∧
    (∀ pls, w.sf.parsed = some pls → w'.sf.parsed = some pls) := by
  have hload := load_id w.disk w.sf c hc.1
  have hsize : w.sf.sizeOf w.disk = w.sf := by
    unfold SourceFile.sizeOf; split
    · exact hload
    · rfl
  have hdet : (w.sf.detectLanguage env w.disk).contents = some c ∧
      (w.sf.detectLanguage env w.disk).size = c.length ∧
      (w.sf.detectLanguage env w.disk).parsed = w.sf.parsed := by
    refine ⟨?_, ?_, (detectLanguage_fields env w.disk w.sf).2.1⟩
    · unfold SourceFile.detectLanguage
      split
      · exact hc.1
      · dsimp only
        split
        · rw [hload]; exact hc.1
        · exact hc.1
    · unfold SourceFile.detectLanguage
      split
      · exact hc.2
      · dsimp only
        split
        · rw [hload]; exact hc.2
        · exact hc.2
  have hrun : (w.sf.runParser env w.disk).1.contents = some c ∧
      (w.sf.runParser env w.disk).1.size = c.length := by
    unfold SourceFile.runParser
    dsimp only
    split
    · exact ⟨hdet.1, hdet.2.1⟩
    · split
      · rw [load_id w.disk _ c hdet.1]
        have : (w.sf.detectLanguage env w.disk).sizeOf w.disk = w.sf.detectLanguage env w.disk := by
          unfold SourceFile.sizeOf; split
          · exact load_id w.disk _ c hdet.1
          · rfl
        dsimp only
        rw [this]
        exact ⟨hdet.1, hdet.2.1⟩
      · exact ⟨hdet.1, hdet.2.1⟩
  have hparse : ∀ pls, w.sf.parsed = some pls → w.sf.doParse env w.disk = some w.sf := by
    intro pls h; unfold SourceFile.doParse; rw [h]
  cases op with
  | setContents c' => exact absurd rfl (hne c')
  | setDiskpath p =>
    cases hs
    exact ⟨hc, fun q h => (by cases h), fun q h => (by cases h), fun _ h => h⟩
  | diskChange d =>
    cases hs
    exact ⟨hc, fun q h => (by cases h), fun q h => (by cases h), fun _ h => h⟩
  | getContents =>
    cases hs
    rw [hload]
    refine ⟨hc, fun q h => ?_, fun q h => (by cases h), fun _ h => h⟩
    injection h with h; rw [← h]; exact hc.1
  | getSize =>
    cases hs
    rw [hsize]
    refine ⟨hc, fun q h => (by cases h), fun q h => ?_, fun _ h => h⟩
    injection h with h; rw [← h]; exact hc.2
  | setLanguage n =>
    cases hs
    have : (w.sf.setLanguage env n).contents = w.sf.contents ∧
        (w.sf.setLanguage env n).size = w.sf.size ∧
        (w.sf.setLanguage env n).parsed = w.sf.parsed := by
      unfold SourceFile.setLanguage; split <;> simp
    refine ⟨⟨this.1.trans hc.1, this.2.1.trans hc.2⟩, fun q h => (by cases h), fun q h => (by cases h), ?_⟩
    intro pls h; exact this.2.2.trans h
  | getLanguage =>
    cases hs
    exact ⟨⟨hdet.1, hdet.2.1⟩, fun q h => (by cases h), fun q h => (by cases h),
      fun pls h => hdet.2.2.trans h⟩
  | parseWithCallback =>
    cases hs
    exact ⟨hrun, fun q h => (by cases h), fun q h => (by cases h),
      fun pls h => (runParser_fields env w.disk w.sf).2.1.trans h⟩
  | parse =>
    rcases hp with hp | ⟨pls, hp⟩
    · simp [mayParse] at hp
    · simp only [step, hparse pls hp, Option.bind_some] at hs
      cases hs
      exact ⟨hc, fun q h => (by cases h), fun q h => (by cases h), fun _ h => h⟩
  | getParsed =>
    rcases hp with hp | ⟨pls, hp⟩
    · simp [mayParse] at hp
    · simp only [step, hparse pls hp, Option.bind_some] at hs
      cases hs
      exact ⟨hc, fun q h => (by cases h), fun q h => (by cases h), fun _ h => h⟩
  | getLicenses =>
    rcases hp with hp | ⟨pls, hp⟩
    · simp [mayParse] at hp
    · simp only [step, SourceFile.computeLicenses] at hs
      split at hs
      · cases hs
        exact ⟨hc, fun q h => (by cases h), fun q h => (by cases h), fun _ h => h⟩
      · simp only [hparse pls hp, Option.bind_some] at hs
        cases hs
        exact ⟨hc, fun q h => (by cases h), fun q h => (by cases h), fun _ h => h⟩
  | getLoc =>
    rcases hp with hp | ⟨pls, hp⟩
    · simp [mayParse] at hp
    · simp only [step, SourceFile.computeLoc] at hs
      split at hs
      · cases hs
        exact ⟨hc, fun q h => (by cases h), fun q h => (by cases h), fun _ h => h⟩
      · simp only [hparse pls hp, Option.bind_some] at hs
        cases hs
        exact ⟨hc, fun q h => (by cases h), fun q h => (by cases h), fun _ h => h⟩

theorem run_contents (env : Env) (c : Bytes) (ops : List Op) :
    ∀ (w w' : World) (res : List Res), run env w ops = some (w', res) → Holds w c →
    (∀ op ∈ ops, ∀ c', op ≠ .setContents c') →
    ((∀ op ∈ ops, mayParse op = false) ∨ ∃ pls, w.sf.parsed = some pls) →
    Holds w' c ∧ (∀ q, .contents q ∈ res → q = some c) ∧
    (∀ n : Int, .size n ∈ res → n = c.length) := by
  induction ops with
  | nil => intro w w' res h hc _ _; cases h; exact ⟨hc, by simp, by simp⟩
  | cons op ops ih =>
    intro w w' res h hc hne hp
    simp only [run] at h
    rcases hs : step env w op with _ | ⟨w1, r⟩
    · rw [hs] at h; cases h
    · rw [hs] at h
      simp only [Option.bind_some] at h
      rcases hr : run env w1 ops with _ | ⟨w2, rs'⟩
      · rw [hr] at h; cases h
      · rw [hr] at h
        cases h
        obtain ⟨a, b, b2, d⟩ := step_contents env w w1 op r c hs hc (hne op (by simp)) (by
          rcases hp with hp | hp
          · exact Or.inl (hp op (by simp))
          · exact Or.inr hp)
        obtain ⟨a', b', b2'⟩ := ih w1 _ rs' hr a (fun o ho => hne o (by simp [ho])) (by
          rcases hp with hp | ⟨pls, hp⟩
          · exact Or.inl (fun o ho => hp o (by simp [ho]))
          · exact Or.inr ⟨pls, d pls hp⟩)
        refine ⟨a', ?_, ?_⟩
        · intro q hq
          rcases List.mem_cons.1 hq with hq | hq
          · exact b q hq.symm
          · exact b' q hq
        · intro q hq
          rcases List.mem_cons.1 hq with hq | hq
          · exact b2 q hq.symm
          · exact b2' q hq

theorem takeWhile_ne_zero_append (a rest : Bytes) (h : (0 : Byte) ∉ a) :
    (a ++ 0 :: rest).takeWhile (fun b => b != 0) = a := by
  rw [List.takeWhile_append_of_pos (fun x hx => by
    have : x ≠ 0 := fun e => h (e ▸ hx)
    simpa using this)]
  simp

theorem takeWhile_ne_zero (c : Bytes) (h : (0 : Byte) ∉ c) :
    c.takeWhile (fun b => b != 0) = c := by
  induction c with
  | nil => rfl
  | cons a c ih =>
    simp only [List.mem_cons, not_or] at h
    have : (a != 0) = true := by simp; exact fun e => h.1 e.symm
    simp only [List.takeWhile_cons, this, if_true]
    rw [ih h.2]

/-- C14, what holds.  Contents set by the caller (up to their first NUL byte, if they have one) are returned, with their size, by every
later query up to the next `set_contents`, if either no call in between may parse the
file, or the file has been parsed before the contents were set.  Missing: the
calls that parse for the first time, see `C14_negation`. -/
theorem C14_contents_partial (env : Env) (w w' : World) (c given : Bytes) (ops : List Op)
    (res : List Res) (hc : (0 : Byte) ∉ c) (hg : given = c ∨ ∃ rest, given = c ++ 0 :: rest)
    (hne : ∀ op ∈ ops, ∀ c', op ≠ .setContents c')
    (hp : (∀ op ∈ ops, mayParse op = false) ∨ ∃ pls, w.sf.parsed = some pls)
    (hr : run env w (.setContents given :: ops) = some (w', res)) :
    (∀ q, Res.contents q ∈ res → q = some c) ∧ (∀ n, Res.size n ∈ res → n = c.length) := by
  simp only [run, step, Option.bind_some] at hr
  rcases hr' : run env ⟨w.sf.setContents given, w.disk⟩ ops with _ | ⟨w2, rs'⟩
  · rw [hr'] at hr; cases hr
  · rw [hr'] at hr
    cases hr
    have hh : Holds ⟨w.sf.setContents given, w.disk⟩ c := by
      rcases hg with rfl | ⟨rest, rfl⟩
      · constructor <;> simp [SourceFile.setContents, takeWhile_ne_zero _ hc]
      · constructor <;> simp only [SourceFile.setContents, takeWhile_ne_zero_append _ _ hc]
    obtain ⟨_, b, b2⟩ := run_contents env c ops _ _ rs' hr' hh hne (by
      rcases hp with hp | ⟨pls, hp⟩
      · exact Or.inl hp
      · exact Or.inr ⟨pls, hp⟩)
    constructor
    · intro q hq
      rcases List.mem_cons.1 hq with h | h
      · cases h
      · exact b q h
    · intro q hq
      rcases List.mem_cons.1 hq with h | h
      · cases h
      · exact b2 q h

example : (run sampleEnv sampleWorld [.setContents [65, 66], .getLanguage, .parseWithCallback,
      .diskChange (fun _ => none), .getContents, .getSize]).map Prod.snd
    = some [.unit, .language (some "c"), .reports [⟨"c", .lcode, 0, 2⟩], .unit,
        .contents (some [65, 66]), .size 2] := by decide +kernel

/-! ### C15: directory listing -/

/-- `Lists dir n p` (specification): starting from directory `dir` whose content is `n`,
the path `p` names a regular file reached through readable directories that
are neither hidden nor symbolic links. -/
inductive Lists : Bytes → Node → Bytes → Prop where
  | file (dir name : Bytes) (es : List (Bytes × Node)) :
      (name, Node.reg) ∈ es → Lists dir (.dir true es) (joinPath dir name)
  | sub (dir name p : Bytes) (es : List (Bytes × Node)) (r : Bool) (es' : List (Bytes × Node)) :
      (name, Node.dir r es') ∈ es → hiddenName name = false →
      Lists (joinPath dir name) (.dir r es') p → Lists dir (.dir true es) p

mutual
theorem addDirectory_sound (dir p : Bytes) :
    ∀ n : Node, p ∈ addDirectory dir n → Lists dir n p
  | .reg, h => by simp [addDirectory] at h
  | .link, h => by simp [addDirectory] at h
  | .other, h => by simp [addDirectory] at h
  | .dir false es, h => by simp [addDirectory] at h
  | .dir true es, h => by
    rw [addDirectory] at h
    exact addEntries_sound dir p es es (fun x hx => hx) h
theorem addEntries_sound (dir p : Bytes) :
    ∀ (es all : List (Bytes × Node)), (∀ x ∈ es, x ∈ all) → p ∈ addEntries dir es →
      Lists dir (.dir true all) p
  | [], _, _, h => by simp [addEntries] at h
  | (name, .reg) :: rest, all, hsub, h => by
    simp only [addEntries, List.mem_append, List.mem_singleton] at h
    rcases h with h | h
    · subst h; exact Lists.file dir name all (hsub _ (by simp))
    · exact addEntries_sound dir p rest all (fun x hx => hsub x (by simp [hx])) h
  | (name, .link) :: rest, all, hsub, h => by
    simp only [addEntries, List.nil_append] at h
    exact addEntries_sound dir p rest all (fun x hx => hsub x (by simp [hx])) h
  | (name, .other) :: rest, all, hsub, h => by
    simp only [addEntries, List.nil_append] at h
    exact addEntries_sound dir p rest all (fun x hx => hsub x (by simp [hx])) h
  | (name, .dir r es') :: rest, all, hsub, h => by
    simp only [addEntries, List.mem_append] at h
    rcases h with h | h
    · cases hh : hiddenName name
      · rw [hh] at h
        simp only [Bool.false_eq_true, if_false] at h
        exact Lists.sub dir name p all r es' (hsub _ (by simp)) hh
          (addDirectory_sound (joinPath dir name) p (.dir r es') h)
      · rw [hh] at h; simp at h
    · exact addEntries_sound dir p rest all (fun x hx => hsub x (by simp [hx])) h
end

theorem addEntries_cons (dir name : Bytes) (n : Node) (rest : List (Bytes × Node)) :
    addEntries dir ((name, n) :: rest) =
      (match n with
      | .link => []
      | .dir r es => if hiddenName name then [] else addDirectory (joinPath dir name) (.dir r es)
      | .reg => [joinPath dir name]
      | .other => []) ++ addEntries dir rest := by
  cases n <;> simp [addEntries]

theorem mem_addEntries_reg (dir name : Bytes) (es : List (Bytes × Node))
    (hm : (name, Node.reg) ∈ es) : joinPath dir name ∈ addEntries dir es := by
  induction es with
  | nil => cases hm
  | cons e rest ih =>
    obtain ⟨name', n'⟩ := e
    rw [addEntries_cons]
    rcases List.mem_cons.1 hm with he | he
    · cases he
      exact List.mem_append_left _ (by simp)
    · exact List.mem_append_right _ (ih he)

theorem mem_addEntries_dir (dir p name : Bytes) (r : Bool) (es' es : List (Bytes × Node))
    (hm : (name, Node.dir r es') ∈ es) (hh : hiddenName name = false)
    (h : p ∈ addDirectory (joinPath dir name) (.dir r es')) : p ∈ addEntries dir es := by
  induction es with
  | nil => cases hm
  | cons e rest ih =>
    obtain ⟨name', n'⟩ := e
    rw [addEntries_cons]
    rcases List.mem_cons.1 hm with he | he
    · cases he
      apply List.mem_append_left
      simp only [hh, Bool.false_eq_true, if_false]; exact h
    · exact List.mem_append_right _ (ih he)

/-- C15.  The listing of a directory contains exactly the paths the specification allows. -/
theorem C15_exactly_the_reachable_files (dir : Bytes) (n : Node) (p : Bytes) :
    p ∈ addDirectory dir n ↔ Lists dir n p := by
  constructor
  · exact addDirectory_sound dir p n
  · intro h
    induction h with
    | file dir name es hm =>
      rw [addDirectory]; exact mem_addEntries_reg dir name es hm
    | sub dir name p es r es' hm hh _ ih =>
      rw [addDirectory]; exact mem_addEntries_dir dir p name r es' es hm hh ih

mutual
/-- Entries of a directory have distinct names without a slash (as on any POSIX file
system), at every level. -/
def WellNamed : Node → Prop
  | .dir _ es => WellNamedEntries es
  | _ => True
def WellNamedEntries : List (Bytes × Node) → Prop
  | [] => True
  | (name, n) :: rest =>
    chSlash ∉ name ∧ (∀ x ∈ rest, x.1 ≠ name) ∧ WellNamed n ∧ WellNamedEntries rest
end

/-- `p` is `dir/name` or below it. -/
def Under (dir name p : Bytes) : Prop :=
  p = joinPath dir name ∨ ∃ t, p = joinPath dir name ++ chSlash :: t

theorem under_of_lists (dir : Bytes) (n : Node) (p : Bytes) (h : Lists dir n p) :
    ∃ t, p = dir ++ chSlash :: t := by
  induction h with
  | file dir name es hm => exact ⟨name, rfl⟩
  | sub dir name p es r es' hm hh _ ih =>
    obtain ⟨t, ht⟩ := ih
    exact ⟨name ++ chSlash :: t, by rw [ht]; simp [joinPath]⟩

theorem cut_at_slash : ∀ (a b s t : Bytes), chSlash ∉ a → chSlash ∉ b →
    (s = [] ∨ ∃ s', s = chSlash :: s') → (t = [] ∨ ∃ t', t = chSlash :: t') →
    a ++ s = b ++ t → a = b := by
  intro a
  induction a with
  | nil =>
    intro b s t _ hb hs _ h
    cases b with
    | nil => rfl
    | cons y b =>
      simp only [List.nil_append, List.cons_append] at h
      rcases hs with rfl | ⟨s', rfl⟩
      · cases h
      · injection h with h _
        exact absurd (by rw [h]; simp) hb
  | cons x a ih =>
    intro b s t ha hb hs ht h
    cases b with
    | nil =>
      simp only [List.nil_append, List.cons_append] at h
      rcases ht with rfl | ⟨t', rfl⟩
      · cases h
      · injection h with h _
        exact absurd (by rw [h]; simp) ha
    | cons y b =>
      simp only [List.cons_append, List.cons.injEq] at h
      simp only [List.mem_cons, not_or] at ha hb
      rw [h.1, ih b s t ha.2 hb.2 hs ht h.2]

theorem under_unique (dir a b p : Bytes) (ha : chSlash ∉ a) (hb : chSlash ∉ b)
    (h1 : Under dir a p) (h2 : Under dir b p) : a = b := by
  have form : ∀ x, Under dir x p → ∃ s, (s = [] ∨ ∃ s', s = chSlash :: s') ∧
      p = dir ++ chSlash :: (x ++ s) := by
    rintro x (h | ⟨t, h⟩)
    · exact ⟨[], Or.inl rfl, by simp [h, joinPath]⟩
    · exact ⟨chSlash :: t, Or.inr ⟨t, rfl⟩, by simp [h, joinPath]⟩
  obtain ⟨s, hs, e1⟩ := form a h1
  obtain ⟨t, ht, e2⟩ := form b h2
  rw [e1] at e2
  have := List.append_cancel_left e2
  injection this with _ this
  exact cut_at_slash a b s t ha hb hs ht this

theorem mem_entries_under (dir p : Bytes) (es : List (Bytes × Node)) (h : p ∈ addEntries dir es) :
    ∃ x ∈ es, Under dir x.1 p := by
  induction es with
  | nil => simp [addEntries] at h
  | cons e rest ih =>
    obtain ⟨name, n⟩ := e
    rw [addEntries_cons] at h
    rcases List.mem_append.1 h with h | h
    · refine ⟨(name, n), by simp, ?_⟩
      cases n with
      | reg => simp at h; exact Or.inl h
      | link => simp at h
      | other => simp at h
      | dir r es' =>
        simp only at h
        split at h
        · simp at h
        · obtain ⟨t, ht⟩ := under_of_lists _ _ _ (addDirectory_sound _ _ _ h)
          exact Or.inr ⟨t, ht⟩
    · obtain ⟨x, hx, hu⟩ := ih h
      exact ⟨x, by simp [hx], hu⟩

theorem entries_no_slash (es : List (Bytes × Node)) (h : WellNamedEntries es) :
    ∀ x ∈ es, chSlash ∉ x.1 := by
  induction es with
  | nil => simp
  | cons e rest ih =>
    obtain ⟨name, n⟩ := e
    rw [WellNamedEntries] at h
    intro x hx
    rcases List.mem_cons.1 hx with hx | hx
    · subst hx; exact h.1
    · exact ih h.2.2.2 x hx

mutual
theorem addDirectory_nodup (dir : Bytes) : ∀ n : Node, WellNamed n → (addDirectory dir n).Nodup
  | .reg, _ => by simp [addDirectory]
  | .link, _ => by simp [addDirectory]
  | .other, _ => by simp [addDirectory]
  | .dir false es, _ => by simp [addDirectory]
  | .dir true es, h => by
    rw [addDirectory]
    rw [WellNamed] at h
    exact addEntries_nodup dir es h
theorem addEntries_nodup (dir : Bytes) :
    ∀ es : List (Bytes × Node), WellNamedEntries es → (addEntries dir es).Nodup
  | [], _ => by simp [addEntries]
  | (name, n) :: rest, h => by
    rw [WellNamedEntries] at h
    obtain ⟨h1, h2, h3, h4⟩ := h
    have ih := addEntries_nodup dir rest h4
    have sep : ∀ p, Under dir name p → p ∉ addEntries dir rest := by
      intro p hu hp
      obtain ⟨x, hx, hux⟩ := mem_entries_under dir p rest hp
      have := under_unique dir name x.1 p h1 (entries_no_slash rest h4 x hx) hu hux
      exact h2 x hx this.symm
    rw [addEntries_cons, List.nodup_append]
    refine ⟨?_, ih, ?_⟩
    · cases n with
      | reg => simp
      | link => simp
      | other => simp
      | dir r es' =>
        simp only
        split
        · simp
        · exact addDirectory_nodup (joinPath dir name) (.dir r es') h3
    · intro a ha b hb hab
      subst hab
      refine sep a ?_ hb
      cases n with
      | reg => simp at ha; exact Or.inl ha
      | link => simp at ha
      | other => simp at ha
      | dir r es' =>
        simp only at ha
        split at ha
        · simp at ha
        · obtain ⟨t, ht⟩ := under_of_lists _ _ _ (addDirectory_sound _ _ _ ha)
          exact Or.inr ⟨t, ht⟩
end

/-- C15.  No file is listed twice. -/
theorem C15_each_file_once (dir : Bytes) (n : Node) (h : WellNamed n) :
    (addDirectory dir n).Nodup := addDirectory_nodup dir n h

/-- C15.  Adding a file or a directory to a list appends at the end and leaves the earlier
part alone. -/
theorem C15_appends (before : Byte) (l : List SourceFile) (dir : Bytes) (n : Node) :
    (∀ path, listAddFile before l path = l ++ [SourceFile.new before path]) ∧
    listAddDirectory before l dir n = l ++ (addDirectory dir n).map (SourceFile.new before) := by
  refine ⟨fun _ => rfl, ?_⟩
  unfold listAddDirectory
  generalize addDirectory dir n = ps
  induction ps generalizing l with
  | nil => simp
  | cons p ps ih => simp [ih, listAddFile]

/-- A tree with a hidden file, a hidden directory, a link, a nested directory. -/
def sampleTree : Node :=
  .dir true [([46], .dir true []), ([97], .reg), ([46, 104], .reg), ([46, 100], .dir true [([120], .reg)]),
    ([108], .link), ([100], .dir true [([98], .reg), ([99], .dir false [([122], .reg)])])]

example : WellNamed sampleTree := by
  simp [sampleTree, WellNamed, WellNamedEntries, chSlash]

example : addDirectory [82] sampleTree
    = [[82, 47, 97], [82, 47, 46, 104], [82, 47, 100, 47, 98]] := by decide +kernel

/-! ### C16: project totals -/

open LocProps ParsedLanguageProps

/-- The counts of one file. -/
def fileCounts (env : Env) (disk : Disk) (s : SourceFile) : LocList :=
  ((s.computeLoc env disk).bind (fun s1 => s1.locList)).getD []

/-- The Locs a list of parsed languages contributes. -/
def locsOf (pls : List ParsedLanguage) : List Loc :=
  pls.map (fun pl => ⟨pl.name, pl.code.count, pl.comments.count, pl.blanksCount, 1⟩)

theorem locListOf_built (pls : List ParsedLanguage) : locListOf pls = built (locsOf pls) := by
  simp only [locListOf, built, locsOf, List.foldl_map]

/-- The counts of a file in a reachable state are those of some parsed languages with
distinct names. -/
theorem computeLoc_locs (env : Env) (disk : Disk) (s s1 : SourceFile) (hi : Inv s)
    (h : s.computeLoc env disk = some s1) :
    ∃ pls, (pls.map ParsedLanguage.name).Nodup ∧ s1.locList = some (locListOf pls) := by
  unfold SourceFile.computeLoc at h
  split at h
  · rename_i l hl
    cases h
    obtain ⟨pls, hp, e⟩ := hi.loc l hl
    exact ⟨pls, hi.nodup pls hp, by rw [hl, e]⟩
  · rcases hp : s.doParse env disk with _ | s2
    · rw [hp] at h; cases h
    · rw [hp] at h
      cases h
      obtain ⟨⟨pls, hq⟩, _⟩ := doParse_fields env disk _ _ hp
      exact ⟨pls, (doParse_inv env disk _ _ hi hp).nodup pls hq, by simp [hq]⟩

theorem analyze_eq (env : Env) (disk : Disk) (files : List SourceFile) :
    ∀ (acc L : LocList), analyzeLoop env disk acc files = some L →
    L = (files.map (fileCounts env disk)).foldl LocList.addLocList acc ∧
    ∀ s ∈ files, ∃ s1, s.computeLoc env disk = some s1 := by
  induction files with
  | nil => intro acc L h; cases h; exact ⟨rfl, by simp⟩
  | cons s rest ih =>
    intro acc L h
    simp only [analyzeLoop] at h
    rcases hc : s.computeLoc env disk with _ | s1
    · rw [hc] at h; cases h
    · rw [hc] at h
      simp only [Option.bind_some] at h
      obtain ⟨e, hall⟩ := ih _ L h
      refine ⟨?_, ?_⟩
      · rw [e]
        simp only [List.map_cons, List.foldl_cons]
        have : fileCounts env disk s = s1.locList.getD [] := by simp [fileCounts, hc]
        rw [this]
      · intro x hx
        rcases List.mem_cons.1 hx with hx | hx
        · subst hx; exact ⟨s1, hc⟩
        · exact hall x hx

/-- Sum of per-file values. -/
def sumFiles (f : Counts → Int) (ls : List LocList) (lang : String) : Int :=
  (ls.map (fun l => f (shown l lang))).sum

theorem shown_built (h : List Loc) (lang : String) :
    shown (built h) lang = specCounts h lang := by
  unfold shown
  rw [C01_lookup_is_sum]
  split
  · rfl
  · rename_i hn
    have : h.filter (fun l => decide (l.language = lang)) = [] := by
      rw [List.filter_eq_nil_iff]
      intro a ha
      simp only [decide_eq_true_eq]
      exact fun e => hn ⟨a, ha, e⟩
    simp [specCounts, sumFor, this]

theorem specCounts_flatten (hs : List (List Loc)) (lang : String) :
    specCounts hs.flatten lang =
      ⟨sumFiles Counts.code (hs.map built) lang, sumFiles Counts.comments (hs.map built) lang,
       sumFiles Counts.blanks (hs.map built) lang, sumFiles Counts.filecount (hs.map built) lang⟩ := by
  induction hs with
  | nil => simp [specCounts, sumFor, sumFiles]
  | cons h hs ih =>
    have e := ih
    simp only [specCounts, Counts.mk.injEq] at e
    obtain ⟨e1, e2, e3, e4⟩ := e
    simp only [List.flatten_cons, specCounts, sumFor_append, e1, e2, e3, e4]
    simp only [sumFiles, List.map_cons, List.sum_cons, shown_built, specCounts]

/-- In a per-file list every language has filecount 1. -/
theorem filecount_one (pls : List ParsedLanguage) (hn : (pls.map ParsedLanguage.name).Nodup)
    (lang : String) :
    (shown (locListOf pls) lang).filecount =
      if lang ∈ pls.map ParsedLanguage.name then 1 else 0 := by
  rw [locListOf_eq pls hn]
  induction pls with
  | nil => simp [shown, LocList.getLoc]
  | cons pl pls ih =>
    simp only [List.map_cons, List.nodup_cons] at hn
    have ih := ih hn.2
    simp only [List.map_cons, List.mem_cons]
    by_cases h : pl.name = lang
    · simp [shown, LocList.getLoc, h, Counts.ofLoc]
    · have h' : ¬ lang = pl.name := fun e => h e.symm
      simp only [shown, LocList.getLoc, h, h', if_false, false_or] at ih ⊢
      exact ih

/-- C16.  For every list of files in reachable states, the summary shows for every
language the sums over the files, and its file count is the number of files that
report that language. -/
theorem C16_sum_over_files (env : Env) (disk : Disk) (files : List SourceFile) (L : LocList)
    (hr : ∀ s ∈ files, Reachable env s)
    (h : analyzeLanguages env disk files = some L) (lang : String) :
    (shown L lang).code = (files.map (fun s => (shown (fileCounts env disk s) lang).code)).sum ∧
    (shown L lang).comments = (files.map (fun s => (shown (fileCounts env disk s) lang).comments)).sum ∧
    (shown L lang).blanks = (files.map (fun s => (shown (fileCounts env disk s) lang).blanks)).sum ∧
    (shown L lang).filecount =
      (files.filter (fun s => ((fileCounts env disk s).getLoc lang).isSome)).length := by
  obtain ⟨e, hall⟩ := analyze_eq env disk files [] L h
  -- the per-file lists are built from lists of Locs
  have hb : ∃ hs : List (List Loc), files.map (fileCounts env disk) = hs.map built := by
    clear e h
    induction files with
    | nil => exact ⟨[], rfl⟩
    | cons s rest ih =>
      obtain ⟨hs, e⟩ := ih (fun x hx => hr x (by simp [hx])) (fun x hx => hall x (by simp [hx]))
      obtain ⟨s1, hs1⟩ := hall s (by simp)
      obtain ⟨pls, hn, hl⟩ := computeLoc_locs env disk s s1 (reachable_inv env s (hr s (by simp))) hs1
      refine ⟨locsOf pls :: hs, ?_⟩
      simp only [List.map_cons, e, ← locListOf_built]
      congr 1
      simp [fileCounts, hs1, hl]
  obtain ⟨hs, ehs⟩ := hb
  have key : shown L lang =
      ⟨sumFiles Counts.code (files.map (fileCounts env disk)) lang,
       sumFiles Counts.comments (files.map (fileCounts env disk)) lang,
       sumFiles Counts.blanks (files.map (fileCounts env disk)) lang,
       sumFiles Counts.filecount (files.map (fileCounts env disk)) lang⟩ := by
    rw [e, ehs, C03_merge_many, shown_built, specCounts_flatten]
  rw [key]
  refine ⟨?_, ?_, ?_, ?_⟩
  · simp only [sumFiles, List.map_map, Function.comp_def]
  · simp only [sumFiles, List.map_map, Function.comp_def]
  · simp only [sumFiles, List.map_map, Function.comp_def]
  · simp only [sumFiles, List.map_map, Function.comp_def]
    clear key ehs e h
    induction files with
    | nil => rfl
    | cons s rest ih =>
      have ih := ih (fun x hx => hr x (by simp [hx])) (fun x hx => hall x (by simp [hx]))
      obtain ⟨s1, hs1⟩ := hall s (by simp)
      obtain ⟨pls, hn, hl⟩ := computeLoc_locs env disk s s1 (reachable_inv env s (hr s (by simp))) hs1
      have hfc : fileCounts env disk s = locListOf pls := by simp [fileCounts, hs1, hl]
      simp only [List.map_cons, List.sum_cons, ih, List.filter_cons]
      have h1 := filecount_one pls hn lang
      rw [hfc, h1]
      have h2 : ((locListOf pls).getLoc lang).isSome = true ↔ lang ∈ pls.map ParsedLanguage.name := by
        rw [locListOf_eq pls hn]
        clear h1 hl hfc hn
        induction pls with
        | nil => simp [LocList.getLoc]
        | cons pl pls ih2 =>
          simp only [List.map_cons, LocList.getLoc, List.mem_cons]
          by_cases h : pl.name = lang
          · simp [h]
          · have h' : ¬ lang = pl.name := fun e => h e.symm
            simp only [h, h', if_false, false_or]; exact ih2
      by_cases hm : lang ∈ pls.map ParsedLanguage.name
      · rw [if_pos hm, if_pos (h2.2 hm)]; simp; omega
      · rw [if_neg hm, if_neg (fun c => hm (h2.1 c))]; simp

/-- C16.  The summary does not depend on the order of the files. -/
theorem C16_order_independent (env : Env) (disk : Disk) (files files' : List SourceFile)
    (L L' : LocList) (hr : ∀ s ∈ files, Reachable env s) (hp : files.Perm files')
    (h : analyzeLanguages env disk files = some L)
    (h' : analyzeLanguages env disk files' = some L') (lang : String) :
    shown L lang = shown L' lang := by
  have hr' : ∀ s ∈ files', Reachable env s := fun s hs => hr s (hp.mem_iff.2 hs)
  obtain ⟨a1, a2, a3, a4⟩ := C16_sum_over_files env disk files L hr h lang
  obtain ⟨b1, b2, b3, b4⟩ := C16_sum_over_files env disk files' L' hr' h' lang
  have hs : ∀ f : SourceFile → Int, (files.map f).sum = (files'.map f).sum :=
    fun f => sumAll_perm f hp
  have hf := (hp.filter (fun s => ((fileCounts env disk s).getLoc lang).isSome)).length_eq
  rcases hL : shown L lang with ⟨c1, c2, c3, c4⟩
  rcases hL' : shown L' lang with ⟨d1, d2, d3, d4⟩
  rw [hL] at a1 a2 a3 a4
  rw [hL'] at b1 b2 b3 b4
  simp only at a1 a2 a3 a4 b1 b2 b3 b4
  rw [a1, a2, a3, a4, b1, b2, b3, b4, hs, hs, hs, hf]

/-- Non-vacuity: two new files. -/
example : (∀ s ∈ [SourceFile.new 0 [97, 46, 99], SourceFile.new 0 [98]], Reachable sampleEnv s) ∧
    analyzeLanguages sampleEnv (fun _ => some [120, 10])
      [SourceFile.new 0 [97, 46, 99], SourceFile.new 0 [98]] = some [⟨"c", 2, 0, 0, 2⟩] := by
  refine ⟨?_, by decide +kernel⟩
  intro s hs
  simp only [List.mem_cons, List.not_mem_nil, or_false] at hs
  rcases hs with rfl | rfl
  · exact ⟨0, _, fun _ => none, [], _, _, rfl, rfl⟩
  · exact ⟨0, _, fun _ => none, [], _, _, rfl, rfl⟩

end Ohcount.SourceFileProps
