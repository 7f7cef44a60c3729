import Verif.DiffProps
/-
Property C23: the delta list of two files (`ohcount_sourcefile_diff`).
-/

namespace Ohcount.DiffProps
open Ohcount.Diff

/-! ### Specification -/

/-- What a file has recorded for a language: text of the code lines, text of the comment
lines, number of blank lines; nothing if the language does not occur. -/
def recorded (pls : List ParsedLanguage) (lang : String) : Bytes × Bytes × Nat :=
  match pls.find? (fun pl => pl.name == lang) with
  | some pl => (pl.code.mem, pl.comments.mem, pl.blanksCount)
  | none => ([], [], 0)

/-- The languages of either file: those of the first, then the other ones of the second. -/
def eitherLanguage (fromPls toPls : List ParsedLanguage) : List String :=
  fromPls.map ParsedLanguage.name ++
    (toPls.map ParsedLanguage.name).filter (fun n => !(fromPls.map ParsedLanguage.name).contains n)

theorem findLanguage_recorded (jb : Byte) (lang : String) (pls : List ParsedLanguage) :
    text (findLanguage jb lang pls).code.mem = text (recorded pls lang).1 ∧
    text (findLanguage jb lang pls).comments.mem = text (recorded pls lang).2.1 ∧
    (findLanguage jb lang pls).blanksCount = (recorded pls lang).2.2 := by
  induction pls with
  | nil => simp [findLanguage, recorded, ParsedLanguage.new, ParsedLanguage.freshBuf, text]
  | cons pl pls ih =>
    by_cases h : lang = pl.name
    · subst h
      simp [findLanguage, recorded]
    · have h' : ¬ pl.name = lang := fun e => h e.symm
      have e : recorded (pl :: pls) lang = recorded pls lang := by simp [recorded, h']
      rw [findLanguage, if_neg h, e]; exact ih

section
variable (ext : Bytes → Bytes → Option Bytes) (junk : Junk) (jb : Byte)

theorem calcLocDelta_language {f t : List ParsedLanguage} {lang : String} {d : LocDelta}
    (h : calcLocDelta ext junk jb f lang t = some d) : d.language = lang := by
  unfold calcLocDelta at h
  simp only [Option.bind_eq_some_iff] at h
  obtain ⟨⟨ca, cr⟩, _, ⟨ma, mr⟩, _, h⟩ := h
  dsimp only at h
  split at h <;> (cases h; rfl)

theorem diffFrom_spec (f t : List ParsedLanguage) : ∀ (pls : List ParsedLanguage) (l l' : LocDeltaList),
    (l.map LocDelta.language ++ pls.map ParsedLanguage.name).Nodup →
    diffFrom ext junk jb f t pls l = some l' →
    ∃ ds : List LocDelta, l' = l ++ ds ∧ ds.map LocDelta.language = pls.map ParsedLanguage.name ∧
      ∀ d ∈ ds, calcLocDelta ext junk jb f d.language t = some d := by
  intro pls
  induction pls with
  | nil => intro l l' _ h; cases h; exact ⟨[], by simp, rfl, by simp⟩
  | cons pl pls ih =>
    intro l l' hn h
    simp only [diffFrom, Option.bind_eq_some_iff] at h
    obtain ⟨d, hd, h⟩ := h
    have hl := calcLocDelta_language ext junk jb hd
    simp only [List.map_cons, List.nodup_append] at hn
    obtain ⟨n1, n2, n3⟩ := hn
    rw [List.nodup_cons] at n2
    rw [LocProps.dadd_new l d (by rw [hl]; intro hm; exact n3 _ hm _ (by simp) rfl)] at h
    obtain ⟨ds, e1, e2, e3⟩ := ih (l ++ [d]) l' (by
      simp only [List.map_append, List.nodup_append, List.map_cons, List.map_nil]
      refine ⟨⟨n1, by simp, ?_⟩, n2.2, ?_⟩
      · intro a ha b hb
        simp only [List.mem_singleton] at hb; subst hb
        rw [hl]; exact n3 a ha _ (by simp)
      · intro a ha b hb
        rcases List.mem_append.1 ha with ha | ha
        · exact n3 a ha b (by simp [hb])
        · simp only [List.mem_singleton] at ha; subst ha
          rw [hl]; intro e; subst e; exact n2.1 hb) h
    refine ⟨d :: ds, by simp [e1], by simp [hl, e2], ?_⟩
    intro x hx
    rcases List.mem_cons.1 hx with rfl | hx
    · rw [hl]; exact hd
    · exact e3 x hx

theorem getDelta_none_iff (l : LocDeltaList) (lang : String) :
    l.getDelta lang = none ↔ lang ∉ l.map LocDelta.language := by
  induction l with
  | nil => simp [LocDeltaList.getDelta]
  | cons e l ih =>
    simp only [LocDeltaList.getDelta, List.map_cons, List.mem_cons, not_or]
    split
    · rename_i h; simp [h]
    · rename_i h; rw [ih]; simp; intro _ e; exact h e.symm

theorem diffTo_spec (f t : List ParsedLanguage) : ∀ (pls : List ParsedLanguage) (l l' : LocDeltaList),
    (l.map LocDelta.language).Nodup → (pls.map ParsedLanguage.name).Nodup →
    diffTo ext junk jb f t pls l = some l' →
    ∃ ds : List LocDelta, l' = l ++ ds ∧
      ds.map LocDelta.language = (pls.map ParsedLanguage.name).filter
        (fun n => !(l.map LocDelta.language).contains n) ∧
      ∀ d ∈ ds, calcLocDelta ext junk jb f d.language t = some d := by
  intro pls
  induction pls with
  | nil => intro l l' _ _ h; cases h; exact ⟨[], by simp, rfl, by simp⟩
  | cons pl pls ih =>
    intro l l' hn hp h
    rw [List.map_cons, List.nodup_cons] at hp
    simp only [diffTo] at h
    split at h
    · rename_i x hx
      have hin : pl.name ∈ l.map LocDelta.language := by
        rcases Classical.em (pl.name ∈ l.map LocDelta.language) with h1 | h1
        · exact h1
        · rw [← getDelta_none_iff, hx] at h1; cases h1
      obtain ⟨ds, e1, e2, e3⟩ := ih l l' hn hp.2 h
      refine ⟨ds, e1, ?_, e3⟩
      rw [e2, List.map_cons, List.filter_cons_of_neg]
      simpa using hin
    · rename_i hx
      rw [getDelta_none_iff] at hx
      simp only [Option.bind_eq_some_iff] at h
      obtain ⟨d, hd, h⟩ := h
      have hl := calcLocDelta_language ext junk jb hd
      rw [LocProps.dadd_new l d (by rw [hl]; exact hx)] at h
      obtain ⟨ds, e1, e2, e3⟩ := ih (l ++ [d]) l' (by
        rw [List.map_append, List.nodup_append]
        refine ⟨hn, by simp, ?_⟩
        intro a ha b hb
        simp only [List.map_cons, List.map_nil, List.mem_singleton] at hb; subst hb
        rw [hl]; intro e; subst e; exact hx ha) hp.2 h
      refine ⟨d :: ds, by simp [e1], ?_, ?_⟩
      · rw [List.map_cons, hl, e2, List.map_cons, List.filter_cons_of_pos (by simpa using hx)]
        congr 1
        apply List.filter_congr
        intro n hnm
        have : ¬ n = pl.name := by intro e; subst e; exact hp.1 hnm
        simp [hl, this]
      · intro y hy
        rcases List.mem_cons.1 hy with rfl | hy
        · rw [hl]; exact hd
        · exact e3 y hy

theorem sourcefileDiff_spec (f t : List ParsedLanguage) (hf : (f.map ParsedLanguage.name).Nodup)
    (ht : (t.map ParsedLanguage.name).Nodup) (l : LocDeltaList)
    (h : sourcefileDiff ext junk jb f t = some l) :
    l.map LocDelta.language = eitherLanguage f t ∧
      ∀ d ∈ l, calcLocDelta ext junk jb f d.language t = some d := by
  simp only [sourcefileDiff, Option.bind_eq_some_iff] at h
  obtain ⟨l1, h1, h2⟩ := h
  obtain ⟨ds, e1, e2, e3⟩ := diffFrom_spec ext junk jb f t f [] l1 (by simpa using hf) h1
  simp only [List.nil_append] at e1
  subst e1
  obtain ⟨ds', f1, f2, f3⟩ := diffTo_spec ext junk jb f t t l1 l (by rw [e2]; exact hf) ht h2
  subst f1
  refine ⟨by rw [List.map_append, e2, f2, e2]; rfl, ?_⟩
  intro d hd
  rcases List.mem_append.1 hd with hd | hd
  · exact e3 d hd
  · exact f3 d hd

/-! ### C23 -/

/-- C23, languages.  Whenever the diff of two parsed files is defined, its entries are
exactly the languages of either file, each once.  (Distinct names: `C09_every_line_counted`.) -/
theorem C23_languages (f t : List ParsedLanguage) (hf : (f.map ParsedLanguage.name).Nodup)
    (ht : (t.map ParsedLanguage.name).Nodup) (l : LocDeltaList)
    (h : sourcefileDiff ext junk jb f t = some l) :
    l.map LocDelta.language = eitherLanguage f t ∧ (l.map LocDelta.language).Nodup ∧
      ∀ lang, lang ∈ l.map LocDelta.language ↔
        (∃ pl ∈ f, pl.name = lang) ∨ (∃ pl ∈ t, pl.name = lang) := by
  obtain ⟨h1, _⟩ := sourcefileDiff_spec ext junk jb f t hf ht l h
  refine ⟨h1, ?_, ?_⟩
  · rw [h1, eitherLanguage, List.nodup_append]
    refine ⟨hf, ht.sublist List.filter_sublist, ?_⟩
    intro a ha b hb e
    subst e
    have h3 := (List.mem_filter.1 hb).2
    rw [Bool.not_eq_true', ← Bool.not_eq_true, List.contains_iff_mem] at h3
    exact h3 ha
  · intro lang
    rw [h1, eitherLanguage]
    simp only [List.mem_append, List.mem_filter, List.mem_map]
    constructor
    · rintro (⟨a, ha, rfl⟩ | ⟨⟨a, ha, rfl⟩, _⟩)
      · exact Or.inl ⟨a, ha, rfl⟩
      · exact Or.inr ⟨a, ha, rfl⟩
    · rintro (⟨a, ha, rfl⟩ | ⟨a, ha, rfl⟩)
      · exact Or.inl ⟨a, ha, rfl⟩
      · by_cases hm : a.name ∈ f.map ParsedLanguage.name
        · left; simpa using hm
        · right; exact ⟨⟨a, ha, rfl⟩, by simpa using hm⟩

/-- C23, blank lines.  They are reported as a pure net change. -/
theorem C23_blanks (f t : List ParsedLanguage) (hf : (f.map ParsedLanguage.name).Nodup)
    (ht : (t.map ParsedLanguage.name).Nodup) (l : LocDeltaList)
    (h : sourcefileDiff ext junk jb f t = some l) (d : LocDelta) (hd : d ∈ l) :
    d.blanksAdded - d.blanksRemoved =
        ((recorded t d.language).2.2 : Int) - ((recorded f d.language).2.2 : Int) ∧
      0 ≤ d.blanksAdded ∧ 0 ≤ d.blanksRemoved ∧ (d.blanksAdded = 0 ∨ d.blanksRemoved = 0) := by
  obtain ⟨_, h2⟩ := sourcefileDiff_spec ext junk jb f t hf ht l h
  have hc := h2 d hd
  have r1 := (findLanguage_recorded jb d.language f).2.2
  have r2 := (findLanguage_recorded jb d.language t).2.2
  unfold calcLocDelta at hc
  simp only [Option.bind_eq_some_iff] at hc
  obtain ⟨⟨ca, cr⟩, _, ⟨ma, mr⟩, _, hc⟩ := hc
  dsimp only at hc
  rw [← r1, ← r2]
  generalize (findLanguage jb d.language f).blanksCount = x at *
  generalize (findLanguage jb d.language t).blanksCount = y at *
  split at hc
  · have hc := Option.some.inj hc
    rw [← hc]; dsimp only; omega
  · have hc := Option.some.inj hc
    rw [← hc]; dsimp only; omega

theorem nonEmptyLines_congr {a b : Bytes} (h : text a = text b) : nonEmptyLines a = nonEmptyLines b := by
  rw [nonEmptyLines, nonEmptyLines, h]

theorem ohcountCalcDiff_small (a b : Bytes) (h : NoZeroHash b) (ha : (text a).length ≤ 100000)
    (hb : (text b).length ≤ 100000) :
    ∃ x r, ohcountCalcDiff ext junk a b = some (x, r) ∧
      x - r = ((nonEmptyLines b).length : Int) - (nonEmptyLines a).length := by
  have : ¬ ((cstr a).length > 100000 ∨ (cstr b).length > 100000) := by
    change ¬ ((text a).length > 100000 ∨ (text b).length > 100000); omega
  rw [ohcountCalcDiff, if_neg this]
  exact C17_net_change_partial junk a b h

/-- C23, net changes, proved part: the diff is defined and the net change of code and
comments is the difference of the numbers of non-empty lines recorded.  Missing: texts
beyond the in-memory limit (an external program is used) and lines of hash value 0. -/
theorem C23_net_change_partial (f t : List ParsedLanguage) (lang : String)
    (hz : NoZeroHash (recorded t lang).1) (hz' : NoZeroHash (recorded t lang).2.1)
    (hs : (text (recorded f lang).1).length ≤ 100000 ∧ (text (recorded t lang).1).length ≤ 100000 ∧
      (text (recorded f lang).2.1).length ≤ 100000 ∧ (text (recorded t lang).2.1).length ≤ 100000) :
    ∃ d, calcLocDelta ext junk jb f lang t = some d ∧ d.language = lang ∧
      d.netCode = ((nonEmptyLines (recorded t lang).1).length : Int) -
        (nonEmptyLines (recorded f lang).1).length ∧
      d.netComments = ((nonEmptyLines (recorded t lang).2.1).length : Int) -
        (nonEmptyLines (recorded f lang).2.1).length ∧
      d.netBlanks = ((recorded t lang).2.2 : Int) - (recorded f lang).2.2 := by
  obtain ⟨f1, f2, f3⟩ := findLanguage_recorded jb lang f
  obtain ⟨t1, t2, t3⟩ := findLanguage_recorded jb lang t
  have n1 := nonEmptyLines_congr f1
  have n2 := nonEmptyLines_congr f2
  have n3 := nonEmptyLines_congr t1
  have n4 := nonEmptyLines_congr t2
  obtain ⟨x, r, e1, e2⟩ := ohcountCalcDiff_small ext junk (findLanguage jb lang f).code.mem
    (findLanguage jb lang t).code.mem (by unfold NoZeroHash; rw [n3]; exact hz) (by rw [f1]; exact hs.1)
    (by rw [t1]; exact hs.2.1)
  obtain ⟨x', r', e1', e2'⟩ := ohcountCalcDiff_small ext junk (findLanguage jb lang f).comments.mem
    (findLanguage jb lang t).comments.mem (by unfold NoZeroHash; rw [n4]; exact hz') (by rw [f2]; exact hs.2.2.1)
    (by rw [t2]; exact hs.2.2.2)
  rw [n1, n3] at e2
  rw [n2, n4] at e2'
  unfold calcLocDelta
  simp only [e1, e1', Option.bind_some]
  rw [f3, t3]
  split
  · refine ⟨_, rfl, rfl, e2, e2', ?_⟩
    simp only [LocDelta.netBlanks]; omega
  · refine ⟨_, rfl, rfl, e2, e2', ?_⟩
    simp only [LocDelta.netBlanks]; omega

/-- C23, the whole list, proved part: under the same conditions for all languages, the
diff of two files is defined. -/
theorem C23_defined_partial (f t : List ParsedLanguage)
    (hz : ∀ lang, NoZeroHash (recorded t lang).1 ∧ NoZeroHash (recorded t lang).2.1)
    (hs : ∀ lang, (text (recorded f lang).1).length ≤ 100000 ∧ (text (recorded t lang).1).length ≤ 100000 ∧
      (text (recorded f lang).2.1).length ≤ 100000 ∧ (text (recorded t lang).2.1).length ≤ 100000) :
    ∃ l, sourcefileDiff ext junk jb f t = some l := by
  have hd : ∀ lang, ∃ d, calcLocDelta ext junk jb f lang t = some d := by
    intro lang
    obtain ⟨d, h, _⟩ := C23_net_change_partial ext junk jb f t lang (hz lang).1 (hz lang).2 (hs lang)
    exact ⟨d, h⟩
  have h1 : ∀ (pls : List ParsedLanguage) (l : LocDeltaList), ∃ l', diffFrom ext junk jb f t pls l = some l' := by
    intro pls
    induction pls with
    | nil => intro l; exact ⟨l, rfl⟩
    | cons pl pls ih =>
      intro l
      obtain ⟨d, hd⟩ := hd pl.name
      simp only [diffFrom, hd, Option.bind_some]; exact ih _
  have h2 : ∀ (pls : List ParsedLanguage) (l : LocDeltaList), ∃ l', diffTo ext junk jb f t pls l = some l' := by
    intro pls
    induction pls with
    | nil => intro l; exact ⟨l, rfl⟩
    | cons pl pls ih =>
      intro l
      obtain ⟨d, hd⟩ := hd pl.name
      simp only [diffTo]
      split
      · exact ih _
      · simp only [hd, Option.bind_some]; exact ih _
  obtain ⟨l, hl⟩ := h1 f []
  obtain ⟨l', hl'⟩ := h2 t l
  exact ⟨l', by simp [sourcefileDiff, hl, hl']⟩

end

/-- A concrete case: two files in C, one line changed and a language added. -/
def sampleFrom : List ParsedLanguage := [⟨"c", 4, ⟨[97, 10, 98, 0], 3, 2⟩, ⟨[0], 0, 0⟩, 1⟩]
def sampleTo : List ParsedLanguage :=
  [⟨"c", 4, ⟨[97, 10, 99, 0], 3, 2⟩, ⟨[0], 0, 0⟩, 3⟩, ⟨"css", 4, ⟨[100, 0], 1, 1⟩, ⟨[0], 0, 0⟩, 0⟩]

example : sourcefileDiff (fun _ _ => none) zeroJunk 0 sampleFrom sampleTo =
    some [⟨"c", 1, 1, 0, 0, 2, 0⟩, ⟨"css", 1, 0, 0, 0, 0, 0⟩] := by decide +kernel
example : (sampleFrom.map ParsedLanguage.name).Nodup ∧ (sampleTo.map ParsedLanguage.name).Nodup := by decide
example : NoZeroHash (recorded sampleTo "c").1 := by unfold NoZeroHash; decide +kernel

end Ohcount.DiffProps
