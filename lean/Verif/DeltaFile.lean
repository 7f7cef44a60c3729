import Verif.KnownFile
import Verif.MemDiffHistory

/-!
From two files to their difference (C102): reading, detection, parsing and the diff put together.
-/

namespace Ohcount.LibraryProps

open Ohcount Ragel Gram Cert ParsedLanguageProps SourceFileProps Diff DiffProps Mem

/-! ### Specification -/

/-- The lines of a language and kind that a file in the language `own` has. -/
def linesIn (own lang : String) (xs : List (Nat × Nat × Kind)) (k : Kind) : Int :=
  if own = lang then linesOf xs k else 0

/-- Lines end with a line feed only, and a line of code or comment has more than blanks and tabs. -/
def Ordinary (text : List Byte) (xs : List (Nat × Nat × Kind)) : Prop :=
  (∀ e, lineEnd text e = true → text[e - 1]? = some 10) ∧
  ∀ x ∈ xs, x.2.2 ≠ .lblank → ∃ b ∈ (text.take x.2.1).drop x.1, b ≠ 32 ∧ b ≠ 9 ∧ b ≠ 10

/-- The lines of code and comment of the file can be compared in memory: their text has at most 100000 bytes. -/
def Short (text : List Byte) (xs : List (Nat × Nat × Kind)) : Prop :=
  (kindLines text xs .lcode).flatten.length ≤ 100000 ∧ (kindLines text xs .lcomment).flatten.length ≤ 100000

/-- No line of code or comment has the hash value 0. -/
def Hashed (text : List Byte) (xs : List (Nat × Nat × Kind)) : Prop :=
  NoZeroHash (kindLines text xs .lcode).flatten ∧ NoZeroHash (kindLines text xs .lcomment).flatten

/-! ### Lines -/

theorem zip_next : ∀ (l : List Nat) (a : Nat), (a :: l).Pairwise (· ≤ ·) → l.Pairwise (· < ·) →
    ∀ x ∈ (a :: l).zip l, ∀ e ∈ l, x.1 < e → x.2 ≤ e
  | [], a, _, _ => by simp
  | b :: l, a, h, hs => by
    intro x hx e he hlt
    obtain ⟨hs1, hs2⟩ := List.pairwise_cons.mp hs
    have h2 := (List.pairwise_cons.mp h).2
    rw [List.zip_cons_cons] at hx
    rcases List.mem_cons.mp hx with rfl | hx
    · rcases List.mem_cons.mp he with rfl | he
      · exact Nat.le_refl _
      · exact Nat.le_of_lt (hs1 e he)
    · rcases List.mem_cons.mp he with rfl | he
      · have := ((zip_tail l e h2).2 x hx).1
        omega
      · exact zip_next l b h2 hs2 x hx e he hlt

theorem ends_sorted (text : List Byte) : (0 :: lineEnds text).Pairwise (· ≤ ·) :=
  List.pairwise_cons.mpr ⟨fun _ _ => Nat.zero_le _, (lineEnds_sorted text).imp Nat.le_of_lt⟩

theorem mem_lineEnds {text : List Byte} {e : Nat} : e ∈ lineEnds text ↔ lineEnd text e = true := by
  unfold lineEnds
  rw [List.mem_filter, List.mem_range]
  refine ⟨fun h => h.2, fun h => ⟨?_, h⟩⟩
  cases e with
  | zero => omega
  | succ p =>
    simp only [lineEnd] at h
    cases hb : text[p]? with
    | none => rw [hb] at h; cases h
    | some b => have := (List.getElem?_eq_some_iff.mp hb).1; omega

/-- A line feed in a text is at a line end. -/
theorem lf_ends {text : List Byte} {p : Nat} (h : text[p]? = some 10) : lineEnd text (p + 1) = true := by
  simp [lineEnd, h]

/-- The lines of a list each have some text, all but the last one with a line feed at the end, and no other. -/
inductive Rows : List (List Byte) → Prop
  | nil : Rows []
  | one (u : List Byte) : u ≠ [] → (10 : Byte) ∉ u → Rows [u]
  | cons (u : List Byte) (ls : List (List Byte)) : u ≠ [] → (10 : Byte) ∉ u → Rows ls → Rows ((u ++ [10]) :: ls)

theorem splitLines_ne : ∀ r, splitLines r ≠ []
  | [] => by simp [splitLines]
  | b :: bs => by
    unfold splitLines
    split
    · simp
    · split <;> simp

theorem splitLines_cons {u : List Byte} (hu : (10 : Byte) ∉ u) (r : List Byte) :
    splitLines (u ++ 10 :: r) = u :: splitLines r := by
  induction u with
  | nil => simp [splitLines]
  | cons a u ih =>
    have ha : a ≠ 10 := fun e => hu (by simp [e])
    rw [List.cons_append, splitLines, if_neg ha, ih fun h => hu (by simp [h])]

theorem splitLines_one {u : List Byte} (hu : (10 : Byte) ∉ u) : splitLines u = [u] := by
  induction u with
  | nil => simp [splitLines]
  | cons a u ih =>
    have ha : a ≠ 10 := fun e => hu (by simp [e])
    rw [splitLines, if_neg ha, ih fun h => hu (by simp [h])]

theorem rows_count {ls : List (List Byte)} (h : Rows ls) :
    ((splitLines ls.flatten).filter fun l => !l.isEmpty).length = ls.length := by
  induction h with
  | nil => rfl
  | one u h1 h2 =>
    rw [List.flatten_cons, List.flatten_nil, List.append_nil, splitLines_one h2]
    cases u with
    | nil => exact absurd rfl h1
    | cons a u => rfl
  | cons u ls h1 h2 _ ih =>
    rw [List.flatten_cons, List.append_assoc, List.singleton_append, splitLines_cons h2, List.filter_cons]
    cases u with
    | nil => exact absurd rfl h1
    | cons a u => simp [ih]

theorem rows_append {A B : List (List Byte)} (hA : ∀ l ∈ A, ∃ u, u ≠ [] ∧ (10 : Byte) ∉ u ∧ l = u ++ [10]) (hB : Rows B) :
    Rows (A ++ B) := by
  induction A with
  | nil => exact hB
  | cons a A ih =>
    obtain ⟨u, h1, h2, rfl⟩ := hA a (by simp)
    exact .cons u _ h1 h2 (ih fun l hl => hA l (by simp [hl]))

theorem dropWhile_ink {u : List Byte} (h : ∃ b ∈ u, b ≠ 32 ∧ b ≠ 9) : (u.dropWhile fun b => b == 0x20 || b == 0x09) ≠ [] := by
  obtain ⟨b, hb, h1, h2⟩ := h
  induction u with
  | nil => cases hb
  | cons a u ih =>
    rw [List.dropWhile_cons]
    split
    · rename_i ha
      rcases List.mem_cons.mp hb with rfl | hb
      · simp_all
      · exact ih hb
    · simp

theorem no_lf {text : List Byte} {s e : Nat} (h : ∀ d, s < d → d ≤ e → lineEnd text d = false) : (10 : Byte) ∉ (text.take e).drop s := by
  intro hm
  obtain ⟨i, hi⟩ := List.mem_iff_getElem?.mp hm
  rw [List.getElem?_drop] at hi
  have h3 : s + i < e := by
    have := (List.getElem?_eq_some_iff.mp hi).1
    rw [List.length_take] at this
    omega
  rw [List.getElem?_take_of_lt h3] at hi
  have := h (s + i + 1) (by omega) (by omega)
  rw [lf_ends hi] at this
  cases this

/-- The lines of code, or of comment, of an ordinary file. -/
theorem known_rows (text : List Byte) (f : Nat → Nat → Kind) (h : Ordinary text (kinded text f)) (k : Kind) (hk : k ≠ .lblank) :
    Rows (kindLines text (kinded text f) k) := by
  obtain ⟨h1, h2⟩ := h
  unfold kindLines kinded
  rw [List.filter_append, List.map_append]
  refine rows_append ?_ ?_
  · intro l hl
    obtain ⟨x, hx, rfl⟩ := List.mem_map.mp hl
    obtain ⟨hx, hxk⟩ := List.mem_filter.mp hx
    obtain ⟨y, hy, rfl⟩ := List.mem_map.mp hx
    simp only at hxk ⊢
    have hink := h2 (y.1, y.2, f y.1 y.2) (by unfold kinded; rw [List.mem_append]; exact Or.inl hx) (by
      simp only; rw [eq_of_beq hxk]; exact hk)
    simp only at hink
    have hz := (zip_tail _ _ (ends_sorted text)).2 y hy
    have hend := mem_lineEnds.mp hz.2.2
    have hlf := h1 _ hend
    have hle := (List.getElem?_eq_some_iff.mp hlf).1
    have hpos : 0 < y.2 := by
      cases h0 : y.2 with
      | zero => rw [h0] at hend; cases hend
      | succ n => omega
    have hnext : ∀ d, y.1 < d → d ≤ y.2 - 1 → lineEnd text d = false := by
      intro d hd1 hd2
      rw [Bool.eq_false_iff]
      intro hd
      have := zip_next _ _ (ends_sorted text) (lineEnds_sorted text) y hy d (mem_lineEnds.mpr hd) hd1
      omega
    have hlt : y.1 < y.2 := by
      obtain ⟨b, hb, _⟩ := hink
      have := List.length_pos_of_mem hb
      rw [List.length_drop, List.length_take] at this
      omega
    have hsplit : (text.take y.2).drop y.1 = (text.take (y.2 - 1)).drop y.1 ++ [10] := by
      have : text.take y.2 = text.take (y.2 - 1) ++ [10] := by
        have e := List.take_succ (l := text) (i := y.2 - 1)
        rw [show y.2 - 1 + 1 = y.2 by omega, hlf] at e
        exact e
      rw [this, List.drop_append_of_le_length (by rw [List.length_take]; omega)]
    rw [hsplit] at hink ⊢
    have hu := no_lf hnext
    have hd : ((text.take (y.2 - 1)).drop y.1).dropWhile (fun b => b == 0x20 || b == 0x09) ≠ [] := by
      obtain ⟨b, hb, b1, b2, b3⟩ := hink
      refine dropWhile_ink ⟨b, ?_, b1, b2⟩
      rcases List.mem_append.mp hb with hb | hb
      · exact hb
      · exact absurd (List.mem_singleton.mp hb) b3
    refine ⟨_, hd, fun hm => hu ((List.dropWhile_suffix _).subset hm), ?_⟩
    rw [List.dropWhile_append, if_neg (by simpa using hd)]
  · dsimp only
    split
    · exact .nil
    · rename_i hb
      rw [List.filter_cons]
      split
      · rw [List.filter_nil, List.map_cons, List.map_nil]
        dsimp only
        have hmem : (lastStart text, text.length, f (lastStart text) text.length) ∈ kinded text f := by
          unfold kinded
          rw [List.mem_append]
          right
          dsimp only
          rw [if_neg hb]
          simp
        obtain ⟨b, hb1, b1, b2, b3⟩ := h2 _ hmem hb
        refine .one _ (dropWhile_ink ⟨b, hb1, b1, b2⟩) fun hm => ?_
        refine no_lf (text := text) (s := lastStart text) (e := text.length) ?_ ((List.dropWhile_suffix _).subset hm)
        intro d hd1 hd2
        rw [Bool.eq_false_iff]
        intro hd
        have hd' := mem_lineEnds.mpr hd
        have : d ≤ lastStart text := by
          unfold lastStart
          have hs := lineEnds_sorted text
          generalize lineEnds text = l at hd' hs
          rw [List.getLastD_eq_getLast?, List.getLast?_eq_some_getLast (List.ne_nil_of_mem hd'), Option.getD_some]
          have hc := List.dropLast_concat_getLast (List.ne_nil_of_mem hd')
          rw [← hc] at hd' hs
          rcases List.mem_append.mp hd' with h | h
          · exact Nat.le_of_lt ((List.pairwise_append.mp hs).2.2 d h _ (by simp))
          · simp only [List.mem_singleton] at h; omega
        omega
      · exact .nil

/-! ### What the files have recorded -/

theorem text_text (b : List Byte) : DiffProps.text (DiffProps.text b) = DiffProps.text b := by
  unfold DiffProps.text
  induction b with
  | nil => rfl
  | cons a b ih =>
    rw [List.takeWhile_cons]
    split
    · rename_i h
      rw [List.takeWhile_cons, if_pos h, ih]
    · rfl

theorem known_kinded {disk : Disk} {path : List Byte} {lang : String} {xs : List (Nat × Nat × Kind)} (h : Known disk path lang xs)
    {text : List Byte} (hd : disk path = some text) : ∃ f, xs = kinded text f := by
  cases h with
  | lexis stem e P L text' hp he hP hT hd' ht hw => rw [hd] at hd'; cases hd'; exact ⟨_, rfl⟩
  | c stem text' hp hd' ht hw => rw [hd] at hd'; cases hd'; exact ⟨_, rfl⟩

/-- What a file has recorded for each language. -/
structure Recorded (lang : String) (text : List Byte) (xs : List (Nat × Nat × Kind)) (pls : List ParsedLanguage) : Prop where
  nodup : (pls.map ParsedLanguage.name).Nodup
  names : ∀ l, (∃ pl ∈ pls, pl.name = l) ↔ lang = l ∧ xs ≠ []
  code : ∀ l, DiffProps.text (recorded pls l).1 = if lang = l then (kindLines text xs .lcode).flatten else []
  comments : ∀ l, DiffProps.text (recorded pls l).2.1 = if lang = l then (kindLines text xs .lcomment).flatten else []
  blanks : ∀ l, ((recorded pls l).2.2 : Int) = linesIn lang l xs .lblank

theorem known_recorded (mc : Host) (before : Byte) (disk : Disk) (path : List Byte) (lang : String) (xs : List (Nat × Nat × Kind))
    (h : Known disk path lang xs) (text : List Byte) (hd : disk path = some text) (h0 : (0 : Byte) ∉ text) :
    ∃ s pls, (SourceFile.new before path).doParse (library mc) disk = some s ∧ s.parsed = some pls ∧ Recorded lang text xs pls := by
  obtain ⟨s, pls, h1, h2, h3, h4⟩ := known_parsed mc before disk path lang xs h text hd h0
  refine ⟨s, pls, h1, h2, ?_⟩
  by_cases hx : xs = []
  · subst hx
    have hp : pls = [] := List.map_eq_nil_iff.mp h3
    subst hp
    refine ⟨by simp, by simp, ?_, ?_, ?_⟩ <;> intro l <;> (try split) <;> simp [recorded, kindLines, linesIn, linesOf, DiffProps.text]
  · rw [if_neg hx] at h3
    obtain ⟨pl, hp⟩ : ∃ pl, pls = [pl] := by
      cases pls with
      | nil => cases h3
      | cons a b => cases b with
        | nil => exact ⟨a, rfl⟩
        | cons c d => cases h3
    subst hp
    obtain ⟨e1, e2, e3, e4⟩ := h4 pl (by simp)
    refine ⟨by simp, ?_, ?_, ?_, ?_⟩
    · intro l; simp [e1, hx]
    all_goals
      intro l
      by_cases hl : lang = l
      · subst hl
        simp only [recorded, List.find?_cons, e1, beq_self_eq_true, if_true, linesIn, e4]
        try first | exact e2 | exact e3
      · have : (pl.name == l) = false := by rw [e1]; exact beq_false_of_ne hl
        simp [recorded, List.find?_cons, this, hl, linesIn, DiffProps.text]

theorem recorded_counts {lang : String} {text : List Byte} {xs : List (Nat × Nat × Kind)} {pls : List ParsedLanguage}
    (h : Recorded lang text xs pls) {f : Nat → Nat → Kind} (hx : xs = kinded text f) (ho : Ordinary text xs) (l : String) :
    ((nonEmptyLines (recorded pls l).1).length : Int) = linesIn lang l xs .lcode ∧
    ((nonEmptyLines (recorded pls l).2.1).length : Int) = linesIn lang l xs .lcomment := by
  subst hx
  have key : ∀ k, k ≠ .lblank → ((splitLines (kindLines text (kinded text f) k).flatten).filter fun l => !l.isEmpty).length = linesOf (kinded text f) k := by
    intro k hk
    rw [rows_count (known_rows text f ho k hk)]
    simp [kindLines, linesOf]
  unfold nonEmptyLines linesIn
  rw [h.code, h.comments]
  by_cases hl : lang = l
  · simp only [hl, if_true]
    exact ⟨congrArg _ (key _ (by decide)), congrArg _ (key _ (by decide))⟩
  · simp only [hl, if_false]
    exact ⟨rfl, rfl⟩

/-! ### C102 -/

/-- Two new source files for two paths. -/
def twoFiles (before : Byte) (disk : Disk) (p₁ p₂ : List Byte) : DWorld :=
  ⟨{ objs := [some (.file (SourceFile.new before p₁)), some (.file (SourceFile.new before p₂))], disk := disk }, []⟩

/-- C102, the full statement: for two files in these languages, `ohcount_sourcefile_diff` returns one entry for each language
that has lines, and what is added minus what is removed is the difference of the numbers of lines of the two files. -/
def C102_full : Prop :=
  ∀ (mc : Host) (ext : Bytes → Bytes → Option Bytes) (junk : Junk) (before : Byte) (disk : Disk) (p₁ p₂ : List Byte) (l₁ l₂ : String)
    (xs₁ xs₂ : List (Nat × Nat × Kind)), Known disk p₁ l₁ xs₁ → Known disk p₂ l₂ xs₂ →
    ∃ w l, (twoFiles before disk p₁ p₂).step (library mc) ext junk (.diff 0 1) = some (w, .deltas l) ∧
      (l.map LocDelta.language).Nodup ∧
      (∀ lang, lang ∈ l.map LocDelta.language ↔ (l₁ = lang ∧ xs₁ ≠ []) ∨ (l₂ = lang ∧ xs₂ ≠ [])) ∧
      ∀ d ∈ l, d.netCode = linesIn l₂ d.language xs₂ .lcode - linesIn l₁ d.language xs₁ .lcode ∧
        d.netComments = linesIn l₂ d.language xs₂ .lcomment - linesIn l₁ d.language xs₁ .lcomment ∧
        d.netBlanks = linesIn l₂ d.language xs₂ .lblank - linesIn l₁ d.language xs₁ .lblank

theorem diff_step {mc : Host} (ext : Bytes → Bytes → Option Bytes) (junk : Junk) {before : Byte} {disk : Disk} {p₁ p₂ : List Byte}
    {a b : SourceFile} {f t : List ParsedLanguage} (a1 : (SourceFile.new before p₁).doParse (library mc) disk = some a)
    (a2 : a.parsed = some f) (b1 : (SourceFile.new before p₂).doParse (library mc) disk = some b) (b2 : b.parsed = some t)
    {l : LocDeltaList} (hl : sourcefileDiff ext junk (library mc).junk f t = some l) :
    ∃ w, (twoFiles before disk p₁ p₂).step (library mc) ext junk (.diff 0 1) = some (w, .deltas l) := by
  have h : ((twoFiles before disk p₁ p₂).step (library mc) ext junk (.diff 0 1)).map (·.2) = some (.deltas l) := by
    simp only [twoFiles, DWorld.step, List.getElem?_cons_zero, List.getElem?_cons_succ, a1, b1, Option.bind_some, a2, b2,
      Option.getD_some, hl, Option.map_some]
  obtain ⟨x, h1, h2⟩ := Option.map_eq_some_iff.mp h
  exact ⟨x.1, by rw [h1, ← h2]⟩

/-- C102, for ordinary files without NUL bytes that are compared in memory, and without lines of hash value 0 in the second one.
Missing: the other files, for which it is false (`C102_negation`), and large files, for which an external program is called. -/
theorem C102_net_partial (mc : Host) (ext : Bytes → Bytes → Option Bytes) (junk : Junk) (before : Byte) (disk : Disk)
    (p₁ p₂ : List Byte) (l₁ l₂ : String) (xs₁ xs₂ : List (Nat × Nat × Kind)) (k₁ : Known disk p₁ l₁ xs₁) (k₂ : Known disk p₂ l₂ xs₂)
    (t₁ t₂ : List Byte) (d₁ : disk p₁ = some t₁) (d₂ : disk p₂ = some t₂) (z₁ : (0 : Byte) ∉ t₁) (z₂ : (0 : Byte) ∉ t₂)
    (o₁ : Ordinary t₁ xs₁) (o₂ : Ordinary t₂ xs₂) (s₁ : Short t₁ xs₁) (s₂ : Short t₂ xs₂) (hh : Hashed t₂ xs₂) :
    ∃ w l, (twoFiles before disk p₁ p₂).step (library mc) ext junk (.diff 0 1) = some (w, .deltas l) ∧
      (l.map LocDelta.language).Nodup ∧
      (∀ lang, lang ∈ l.map LocDelta.language ↔ (l₁ = lang ∧ xs₁ ≠ []) ∨ (l₂ = lang ∧ xs₂ ≠ [])) ∧
      ∀ d ∈ l, d.netCode = linesIn l₂ d.language xs₂ .lcode - linesIn l₁ d.language xs₁ .lcode ∧
        d.netComments = linesIn l₂ d.language xs₂ .lcomment - linesIn l₁ d.language xs₁ .lcomment ∧
        d.netBlanks = linesIn l₂ d.language xs₂ .lblank - linesIn l₁ d.language xs₁ .lblank := by
  obtain ⟨f₁, e₁⟩ := known_kinded k₁ d₁
  obtain ⟨f₂, e₂⟩ := known_kinded k₂ d₂
  obtain ⟨a, f, a1, a2, ra⟩ := known_recorded mc before disk p₁ l₁ xs₁ k₁ t₁ d₁ z₁
  obtain ⟨b, t, b1, b2, rb⟩ := known_recorded mc before disk p₂ l₂ xs₂ k₂ t₂ d₂ z₂
  have hz : ∀ lang, NoZeroHash (recorded t lang).1 ∧ NoZeroHash (recorded t lang).2.1 := by
    intro lang
    have c1 : nonEmptyLines (recorded t lang).1 = nonEmptyLines (if l₂ = lang then (kindLines t₂ xs₂ .lcode).flatten else []) :=
      nonEmptyLines_congr (by rw [← rb.code lang, text_text])
    have c2 : nonEmptyLines (recorded t lang).2.1 = nonEmptyLines (if l₂ = lang then (kindLines t₂ xs₂ .lcomment).flatten else []) :=
      nonEmptyLines_congr (by rw [← rb.comments lang, text_text])
    unfold NoZeroHash
    rw [c1, c2]
    by_cases hl : l₂ = lang
    · simp only [hl, if_true]; exact hh
    · simp only [hl, if_false]
      constructor <;> (intro x hx; cases hx)
  have hs : ∀ lang, (DiffProps.text (recorded f lang).1).length ≤ 100000 ∧ (DiffProps.text (recorded t lang).1).length ≤ 100000 ∧
      (DiffProps.text (recorded f lang).2.1).length ≤ 100000 ∧ (DiffProps.text (recorded t lang).2.1).length ≤ 100000 := by
    intro lang
    rw [ra.code, ra.comments, rb.code, rb.comments]
    refine ⟨?_, ?_, ?_, ?_⟩ <;> split
    · exact s₁.1
    · exact Nat.zero_le _
    · exact s₂.1
    · exact Nat.zero_le _
    · exact s₁.2
    · exact Nat.zero_le _
    · exact s₂.2
    · exact Nat.zero_le _
  obtain ⟨l, hl⟩ := C23_defined_partial ext junk (library mc).junk f t hz hs
  obtain ⟨_, n2, n3⟩ := C23_languages ext junk (library mc).junk f t ra.nodup rb.nodup l hl
  obtain ⟨w, hw⟩ := diff_step ext junk (p₁ := p₁) (p₂ := p₂) a1 a2 b1 b2 hl
  refine ⟨w, l, hw, n2, ?_, ?_⟩
  · intro lang
    rw [n3, ra.names, rb.names]
  · intro d hd
    obtain ⟨_, h2⟩ := sourcefileDiff_spec ext junk (library mc).junk f t ra.nodup rb.nodup l hl
    obtain ⟨d', g1, _, g3, g4, g5⟩ := C23_net_change_partial ext junk (library mc).junk f t d.language (hz _).1 (hz _).2 (hs _)
    rw [h2 d hd] at g1
    cases g1
    obtain ⟨q1, q2⟩ := recorded_counts ra e₁ o₁ d.language
    obtain ⟨q3, q4⟩ := recorded_counts rb e₂ o₂ d.language
    rw [g3, g4, g5, q1, q2, q3, q4, ra.blanks, rb.blanks]
    exact ⟨rfl, rfl, rfl⟩

theorem diff_defined (ext : Bytes → Bytes → Option Bytes) (junk : Junk) (jb : Byte) (f t : List ParsedLanguage)
    (hd : ∀ lang, ∃ d, calcLocDelta ext junk jb f lang t = some d) : ∃ l, sourcefileDiff ext junk jb f t = some l := by
  have h1 : ∀ (pls : List ParsedLanguage) (l : LocDeltaList), ∃ l', diffFrom ext junk jb f t pls l = some l' := by
    intro pls
    induction pls with
    | nil => intro l; exact ⟨l, rfl⟩
    | cons pl pls ih =>
      intro l
      obtain ⟨d, hd⟩ := hd pl.name
      simp only [diffFrom, hd, Option.bind_some]; exact ih _
  have h2 : ∀ (pls : List ParsedLanguage) (l : LocDeltaList), ∃ l', diffTo ext junk jb f t pls l = some l' := by
    intro pls
    induction pls with
    | nil => intro l; exact ⟨l, rfl⟩
    | cons pl pls ih =>
      intro l
      obtain ⟨d, hd⟩ := hd pl.name
      simp only [diffTo]
      split
      · exact ih _
      · simp only [hd, Option.bind_some]; exact ih _
  obtain ⟨l, hl⟩ := h1 f []
  obtain ⟨l', hl'⟩ := h2 t l
  exact ⟨l', by simp [sourcefileDiff, hl, hl']⟩

/-- C102: two files in one language, with the same lines of code and of comment but for the blanks and tabs before them, and
equally many blank lines, are not different, in whatever order code and comments are, and also if lines have the hash value 0. -/
theorem C102_unchanged (mc : Host) (ext : Bytes → Bytes → Option Bytes) (junk : Junk) (before : Byte) (disk : Disk)
    (p₁ p₂ : List Byte) (lang : String) (xs₁ xs₂ : List (Nat × Nat × Kind)) (k₁ : Known disk p₁ lang xs₁) (k₂ : Known disk p₂ lang xs₂)
    (t₁ t₂ : List Byte) (d₁ : disk p₁ = some t₁) (d₂ : disk p₂ = some t₂) (z₁ : (0 : Byte) ∉ t₁) (z₂ : (0 : Byte) ∉ t₂)
    (s₁ : Short t₁ xs₁) (hc : kindLines t₁ xs₁ .lcode = kindLines t₂ xs₂ .lcode)
    (hm : kindLines t₁ xs₁ .lcomment = kindLines t₂ xs₂ .lcomment) (hb : linesOf xs₁ .lblank = linesOf xs₂ .lblank) :
    ∃ w l, (twoFiles before disk p₁ p₂).step (library mc) ext junk (.diff 0 1) = some (w, .deltas l) ∧
      ∀ d ∈ l, d = ⟨lang, 0, 0, 0, 0, 0, 0⟩ := by
  obtain ⟨a, f, a1, a2, ra⟩ := known_recorded mc before disk p₁ lang xs₁ k₁ t₁ d₁ z₁
  obtain ⟨b, t, b1, b2, rb⟩ := known_recorded mc before disk p₂ lang xs₂ k₂ t₂ d₂ z₂
  have same : ∀ x y : Bytes, DiffProps.text x = DiffProps.text y → (DiffProps.text x).length ≤ 100000 →
      ohcountCalcDiff ext junk x y = some (0, 0) := by
    intro x y h1 h2
    have : ¬ ((cstr x).length > 100000 ∨ (cstr y).length > 100000) := by
      change ¬ ((DiffProps.text x).length > 100000 ∨ (DiffProps.text y).length > 100000)
      rw [← h1]; omega
    rw [ohcountCalcDiff, if_neg this]
    exact C18_empty_lines_ignored junk x y (nonEmptyLines_congr h1)
  have key : ∀ l, calcLocDelta ext junk (library mc).junk f l t = some ⟨l, 0, 0, 0, 0, 0, 0⟩ := by
    intro l
    obtain ⟨f1, f2, f3⟩ := findLanguage_recorded (library mc).junk l f
    obtain ⟨g1, g2, g3⟩ := findLanguage_recorded (library mc).junk l t
    rw [ra.code] at f1
    rw [ra.comments] at f2
    rw [rb.code, ← hc] at g1
    rw [rb.comments, ← hm] at g2
    have e1 := same _ _ (f1.trans g1.symm) (by rw [f1]; split <;> first | exact s₁.1 | exact Nat.zero_le _)
    have e2 := same _ _ (f2.trans g2.symm) (by rw [f2]; split <;> first | exact s₁.2 | exact Nat.zero_le _)
    have e3 : (findLanguage (library mc).junk l f).blanksCount = (findLanguage (library mc).junk l t).blanksCount := by
      have h1 := ra.blanks l
      have h2 := rb.blanks l
      simp only [linesIn, hb] at h1 h2
      rw [f3, g3]
      omega
    simp only [calcLocDelta, e1, e2, e3, Option.bind_some, Int.sub_self, gt_iff_lt, Int.lt_irrefl, if_false]
  obtain ⟨l, hl⟩ := diff_defined ext junk (library mc).junk f t fun l => ⟨_, key l⟩
  obtain ⟨w, hw⟩ := diff_step ext junk (p₁ := p₁) (p₂ := p₂) a1 a2 b1 b2 hl
  refine ⟨w, l, hw, fun d hd => ?_⟩
  obtain ⟨_, _, n3⟩ := C23_languages ext junk (library mc).junk f t ra.nodup rb.nodup l hl
  obtain ⟨_, h2⟩ := sourcefileDiff_spec ext junk (library mc).junk f t ra.nodup rb.nodup l hl
  have hlang : lang = d.language := by
    rcases (n3 d.language).mp (List.mem_map.mpr ⟨d, hd, rfl⟩) with h | h
    · exact ((ra.names _).mp h).1
    · exact ((rb.names _).mp h).1
  have := h2 d hd
  rw [key, ← hlang] at this
  exact (Option.some.inj this).symm

/-! ### A file with carriage returns -/

def oneLine : List Byte := bytes "int x;\n"
def twoLines : List Byte := bytes "int x;\rint y;\n"

def crDisk : Disk := fun p => if p = bytes "d/a.c" then some oneLine else if p = bytes "d/b.c" then some twoLines else none

theorem one_known : Known crDisk (bytes "d/a.c") "c" [(0, 7, .lcode)] := by
  have := Known.c (disk := crDisk) (path := bytes "d/a.c") (bytes "d/a") oneLine (by decide +kernel) (by decide +kernel) (by decide +kernel) (by decide +kernel)
  rw [show cLines oneLine = [(0, 7, .lcode)] by decide +kernel] at this
  exact this

theorem two_known : Known crDisk (bytes "d/b.c") "c" [(0, 7, .lcode), (7, 14, .lcode)] := by
  have := Known.c (disk := crDisk) (path := bytes "d/b.c") (bytes "d/b") twoLines (by decide +kernel) (by decide +kernel) (by decide +kernel) (by decide +kernel)
  rw [show cLines twoLines = [(0, 7, .lcode), (7, 14, .lcode)] by decide +kernel] at this
  exact this

/-- C102 is false: lines that end with a carriage return are counted one by one, but compared as one line. -/
theorem C102_negation : ¬ C102_full := by
  intro hfull
  obtain ⟨w, l, hs, _, hn, hd⟩ := hfull plainHost (fun _ _ => none) zeroJunk 0 crDisk _ _ _ _ _ _ one_known two_known
  obtain ⟨a, f, a1, a2, ra⟩ := known_recorded plainHost 0 crDisk _ _ _ one_known oneLine (by decide +kernel) (by decide +kernel)
  obtain ⟨b, t, b1, b2, rb⟩ := known_recorded plainHost 0 crDisk _ _ _ two_known twoLines (by decide +kernel) (by decide +kernel)
  have c1 := ra.code "c"
  have c2 := rb.code "c"
  have m1 := ra.comments "c"
  have m2 := rb.comments "c"
  rw [if_pos rfl, show (kindLines oneLine [(0, 7, .lcode)] .lcode).flatten = oneLine by decide +kernel] at c1
  rw [if_pos rfl, show (kindLines twoLines [(0, 7, .lcode), (7, 14, .lcode)] .lcode).flatten = twoLines by decide +kernel] at c2
  rw [if_pos rfl, show (kindLines oneLine [(0, 7, .lcode)] .lcomment).flatten = [] by decide +kernel] at m1
  rw [if_pos rfl, show (kindLines twoLines [(0, 7, .lcode), (7, 14, .lcode)] .lcomment).flatten = [] by decide +kernel] at m2
  have n1 : nonEmptyLines (recorded f "c").1 = [bytes "int x;"] := by unfold nonEmptyLines; rw [c1]; decide +kernel
  have n2 : nonEmptyLines (recorded t "c").1 = [bytes "int x;\rint y;"] := by unfold nonEmptyLines; rw [c2]; decide +kernel
  have n3 : nonEmptyLines (recorded t "c").2.1 = [] := by unfold nonEmptyLines; rw [m2]; rfl
  obtain ⟨d', g1, _, g3, _, _⟩ := C23_net_change_partial (fun _ _ => none) zeroJunk (library plainHost).junk f t "c"
    (by unfold NoZeroHash; rw [n2]; decide +kernel) (by unfold NoZeroHash; rw [n3]; simp)
    (by rw [c1, c2, m1, m2]; decide +kernel)
  rw [n1, n2] at g3
  obtain ⟨d, hdl, hdn⟩ := List.mem_map.mp ((hn "c").mpr (Or.inl ⟨rfl, by simp⟩))
  have hl : sourcefileDiff (fun _ _ => none) zeroJunk (library plainHost).junk f t = some l := by
    have hs' := congrArg (Option.map (·.2)) hs
    simp only [twoFiles, DWorld.step, List.getElem?_cons_zero, List.getElem?_cons_succ, a1, b1, Option.bind_some, a2, b2,
      Option.getD_some, Option.map_some] at hs'
    cases e : sourcefileDiff (fun _ _ => none) zeroJunk (library plainHost).junk f t with
    | none => rw [e] at hs'; cases hs'
    | some l' => rw [e] at hs'; cases hs'; rfl
  obtain ⟨_, h2⟩ := sourcefileDiff_spec _ _ _ f t ra.nodup rb.nodup l hl
  have e := h2 d hdl
  rw [hdn, g1] at e
  cases e
  have := (hd _ hdl).1
  rw [g3, hdn] at this
  revert this
  decide +kernel

/-- The conditions of `C102_unchanged` are met by two files with other blanks before the lines, and the lines in another order. -/
example :
    let t₁ := bytes "// a\nint x;\n\n"
    let t₂ := bytes "\n\tint x;\n  // a\n"
    let disk : Disk := fun p => if p = bytes "a.c" then some t₁ else if p = bytes "b.c" then some t₂ else none
    let xs₁ := [(0, 5, Kind.lcomment), (5, 12, .lcode), (12, 13, .lblank)]
    let xs₂ := [(0, 1, Kind.lblank), (1, 9, .lcode), (9, 16, .lcomment)]
    Known disk (bytes "a.c") "c" xs₁ ∧ Known disk (bytes "b.c") "c" xs₂ ∧ kindLines t₁ xs₁ .lcode = kindLines t₂ xs₂ .lcode ∧
    kindLines t₁ xs₁ .lcomment = kindLines t₂ xs₂ .lcomment ∧ linesOf xs₁ .lblank = linesOf xs₂ .lblank := by
  intro t₁ t₂ disk xs₁ xs₂
  refine ⟨?_, ?_, by decide +kernel, by decide +kernel, by decide +kernel⟩
  · have := Known.c (disk := disk) (path := bytes "a.c") (bytes "a") t₁ (by decide +kernel) (by decide +kernel) (by decide +kernel) (by decide +kernel)
    rw [show cLines t₁ = xs₁ by decide +kernel] at this
    exact this
  · have := Known.c (disk := disk) (path := bytes "b.c") (bytes "b") t₂ (by decide +kernel) (by decide +kernel) (by decide +kernel) (by decide +kernel)
    rw [show cLines t₂ = xs₂ by decide +kernel] at this
    exact this

/-- The conditions of C102 are met by two files with a line of code changed and a comment added. -/
example :
    let t₁ := bytes "int x;\n\nint y;\n"
    let t₂ := bytes "int x; // a\n/* b */\n\nint z;"
    let disk : Disk := fun p => if p = bytes "a.c" then some t₁ else if p = bytes "b.c" then some t₂ else none
    let xs₁ := [(0, 7, Kind.lcode), (7, 8, .lblank), (8, 15, .lcode)]
    let xs₂ := [(0, 12, Kind.lcode), (12, 20, .lcomment), (20, 21, .lblank), (21, 27, .lcode)]
    Known disk (bytes "a.c") "c" xs₁ ∧ Known disk (bytes "b.c") "c" xs₂ ∧ (0 : Byte) ∉ t₁ ∧ (0 : Byte) ∉ t₂ ∧
    Ordinary t₁ xs₁ ∧ Ordinary t₂ xs₂ ∧ Short t₁ xs₁ ∧ Short t₂ xs₂ ∧ Hashed t₂ xs₂ := by
  intro t₁ t₂ disk xs₁ xs₂
  have ends : ∀ t : List Byte, (12 : Byte) ∉ t → (13 : Byte) ∉ t → ∀ e, lineEnd t e = true → t[e - 1]? = some 10 := by
    intro t h1 h2 e he
    cases e with
    | zero => cases he
    | succ p =>
      simp only [lineEnd] at he
      rw [Nat.add_sub_cancel]
      cases hb : t[p]? with
      | none => rw [hb] at he; cases he
      | some b =>
        rw [hb] at he
        have hm := List.mem_of_getElem? hb
        simp only [Bool.or_eq_true, Bool.and_eq_true, beq_iff_eq] at he
        rcases he with (rfl | rfl) | ⟨rfl, _⟩
        · rfl
        · exact absurd hm h1
        · exact absurd hm h2
  refine ⟨?_, ?_, by decide +kernel, by decide +kernel, ⟨ends _ (by decide +kernel) (by decide +kernel), by decide +kernel⟩,
    ⟨ends _ (by decide +kernel) (by decide +kernel), by decide +kernel⟩, ⟨by decide +kernel, by decide +kernel⟩,
    ⟨by decide +kernel, by decide +kernel⟩, ?_⟩
  · have := Known.c (disk := disk) (path := bytes "a.c") (bytes "a") t₁ (by decide +kernel) (by decide +kernel) (by decide +kernel) (by decide +kernel)
    rw [show cLines t₁ = xs₁ by decide +kernel] at this
    exact this
  · have := Known.c (disk := disk) (path := bytes "b.c") (bytes "b") t₂ (by decide +kernel) (by decide +kernel) (by decide +kernel) (by decide +kernel)
    rw [show cLines t₂ = xs₂ by decide +kernel] at this
    exact this
  · unfold Hashed NoZeroHash; decide +kernel

end Ohcount.LibraryProps
