import Verif.Loc
/-
Properties C01-C07 of `src/loc.c`.

Specification: a *history* is the list of everything that was added, oldest
first.  `sumFor f lang h` is the sum of `f` over the entries of `h` with
language `lang`, `sumAll f h` the sum over all entries.
-/

namespace Ohcount.LocProps

open Ohcount

/-- Sum of `f` over a list (specification). -/
def sumAll {α : Type} (f : α → Int) (h : List α) : Int := (h.map f).sum

/-- Sum of `f` over the Locs of one language (specification). -/
def sumFor (f : Loc → Int) (lang : String) (h : List Loc) : Int :=
  sumAll f (h.filter (fun l => decide (l.language = lang)))

/-- The list obtained from a fresh list by adding the history in order. -/
def built (h : List Loc) : LocList := h.foldl LocList.addLoc []

/-- What a user sees when looking up a language: the four counters, all of which
are zero when the language is absent. -/
structure Counts where
  code : Int
  comments : Int
  blanks : Int
  filecount : Int
  deriving DecidableEq

def Counts.ofLoc (l : Loc) : Counts := ⟨l.code, l.comments, l.blanks, l.filecount⟩

/-- Field-wise sums of a history for one language. -/
def specCounts (h : List Loc) (lang : String) : Counts :=
  ⟨sumFor Loc.code lang h, sumFor Loc.comments lang h,
   sumFor Loc.blanks lang h, sumFor Loc.filecount lang h⟩

/-! ### Helper lemmas -/

theorem foldl_add {α : Type} (f : α → Int) (l : List α) (z : Int) :
    l.foldl (fun s e => s + f e) z = z + sumAll f l := by
  induction l generalizing z with
  | nil => simp [sumAll]
  | cons a l ih => simp only [List.foldl_cons, ih, sumAll, List.map_cons, List.sum_cons]; omega

theorem sumLoop_eq (f : Loc → Int) (l : LocList) : LocList.sumLoop f l = sumAll f l := by
  simp [LocList.sumLoop, foldl_add]

theorem dsumLoop_eq (f : LocDelta → Int) (l : LocDeltaList) :
    LocDeltaList.sumLoop f l = sumAll f l := by
  simp [LocDeltaList.sumLoop, foldl_add]

@[simp] theorem sumAll_nil {α : Type} (f : α → Int) : sumAll f [] = 0 := rfl
@[simp] theorem sumAll_cons {α : Type} (f : α → Int) (a : α) (l : List α) :
    sumAll f (a :: l) = f a + sumAll f l := rfl
theorem sumAll_append {α : Type} (f : α → Int) (a b : List α) :
    sumAll f (a ++ b) = sumAll f a + sumAll f b := by
  induction a with
  | nil => simp
  | cons x a ih => simp [ih]; omega

theorem sumAll_perm {α : Type} (f : α → Int) {a b : List α} (h : a.Perm b) :
    sumAll f a = sumAll f b := by
  induction h with
  | nil => rfl
  | cons x _ ih => simp [ih]
  | swap x y l => simp; omega
  | trans _ _ ih1 ih2 => omega

theorem sumFor_append (f : Loc → Int) (lang : String) (a b : List Loc) :
    sumFor f lang (a ++ b) = sumFor f lang a + sumFor f lang b := by
  simp [sumFor, sumAll_append]

theorem sumFor_perm (f : Loc → Int) (lang : String) {a b : List Loc} (h : a.Perm b) :
    sumFor f lang a = sumFor f lang b :=
  sumAll_perm f (h.filter _)

/-- The languages of a list, in order. -/
def langs (l : LocList) : List String := l.map Loc.language

@[simp] theorem addLoc_language (a b : Loc) : (a.addLoc b).language = a.language := by
  unfold Loc.addLoc; split <;> rfl

theorem langs_addLoc (l : LocList) (x : Loc) :
    langs (l.addLoc x) = if x.language ∈ langs l then langs l else langs l ++ [x.language] := by
  induction l with
  | nil => simp [LocList.addLoc, langs]
  | cons e rest ih =>
    unfold LocList.addLoc
    by_cases h : e.language = x.language
    · simp [h, langs]
    · simp only [h, if_false]
      have h' : ¬ x.language = e.language := fun h2 => h h2.symm
      have c : langs (e :: rest) = e.language :: langs rest := rfl
      have c2 : langs (e :: LocList.addLoc rest x) = e.language :: langs (LocList.addLoc rest x) := rfl
      have m : x.language ∈ langs (e :: rest) ↔ x.language ∈ langs rest := by
        rw [c, List.mem_cons]; simp [h']
      rw [c2, ih]
      by_cases hm : x.language ∈ langs rest
      · rw [if_pos hm, if_pos (m.2 hm), c]
      · rw [if_neg hm, if_neg (fun h => hm (m.1 h)), c, List.cons_append]

theorem nodup_addLoc (l : LocList) (x : Loc) (h : (langs l).Nodup) :
    (langs (l.addLoc x)).Nodup := by
  rw [langs_addLoc]
  split
  · exact h
  · rename_i hn
    rw [List.nodup_append]
    refine ⟨h, by simp, ?_⟩
    intro a ha b hb
    simp at hb
    subst hb
    intro hab; subst hab; exact hn ha

theorem nodup_foldl (h : List Loc) (l : LocList) (hl : (langs l).Nodup) :
    (langs (h.foldl LocList.addLoc l)).Nodup := by
  induction h generalizing l with
  | nil => exact hl
  | cons x h ih => exact ih _ (nodup_addLoc l x hl)

/-- Lookup of a language, as the user sees it. -/
def view (l : LocList) (lang : String) : Option Counts := (l.getLoc lang).map Counts.ofLoc

def Counts.zero : Counts := ⟨0, 0, 0, 0⟩
def Counts.add (a b : Counts) : Counts :=
  ⟨a.code + b.code, a.comments + b.comments, a.blanks + b.blanks, a.filecount + b.filecount⟩

theorem getLoc_none_iff (l : LocList) (lang : String) :
    l.getLoc lang = none ↔ lang ∉ langs l := by
  induction l with
  | nil => simp [LocList.getLoc, langs]
  | cons e rest ih =>
    unfold LocList.getLoc
    by_cases h : e.language = lang
    · simp [h, langs]
    · simp only [h, if_false, ih, langs, List.map_cons, List.mem_cons]
      have h' : ¬ lang = e.language := fun h2 => h h2.symm
      simp [h']

theorem getLoc_language (l : LocList) (lang : String) (e : Loc) (h : l.getLoc lang = some e) :
    e.language = lang := by
  induction l with
  | nil => simp [LocList.getLoc] at h
  | cons a rest ih =>
    unfold LocList.getLoc at h
    split at h
    · cases h; assumption
    · exact ih h

theorem getLoc_addLoc (l : LocList) (x : Loc) (lang : String) :
    (l.addLoc x).getLoc lang =
      if x.language = lang then
        some (match l.getLoc lang with | some e => e.addLoc x | none => x)
      else l.getLoc lang := by
  induction l with
  | nil =>
    simp only [LocList.addLoc, LocList.getLoc]
  | cons e rest ih =>
    unfold LocList.addLoc
    by_cases h : e.language = x.language
    · simp only [h, if_true]
      unfold LocList.getLoc
      simp only [addLoc_language, h]
      split <;> simp
    · simp only [h, if_false]
      unfold LocList.getLoc
      by_cases h2 : e.language = lang
      · have : ¬ x.language = lang := fun h3 => h (h2.trans h3.symm)
        simp [h2, this]
      · simp only [h2, if_false, ih]

theorem view_addLoc (l : LocList) (x : Loc) (lang : String) :
    view (l.addLoc x) lang =
      if x.language = lang then
        some (((view l lang).getD Counts.zero).add (Counts.ofLoc x))
      else view l lang := by
  unfold view
  rw [getLoc_addLoc]
  split
  · rename_i hx
    cases hg : l.getLoc lang with
    | none => simp [Counts.zero, Counts.add, Counts.ofLoc]
    | some e =>
      have := getLoc_language l lang e hg
      simp [Counts.add, Counts.ofLoc, Loc.addLoc, this, hx]
  · rfl

theorem specCounts_append (a b : List Loc) (lang : String) :
    specCounts (a ++ b) lang = (specCounts a lang).add (specCounts b lang) := by
  simp [specCounts, Counts.add, sumFor_append]

theorem view_foldl (h : List Loc) (l : LocList) (lang : String) :
    view (h.foldl LocList.addLoc l) lang =
      if lang ∈ langs h then
        some (((view l lang).getD Counts.zero).add (specCounts h lang))
      else view l lang := by
  induction h generalizing l with
  | nil => simp [langs]
  | cons x h ih =>
    simp only [List.foldl_cons, ih, view_addLoc]
    by_cases hx : x.language = lang
    · subst hx
      simp only [if_true, langs, List.map_cons, List.mem_cons, true_or]
      have key : specCounts (x :: h) x.language
          = (Counts.ofLoc x).add (specCounts h x.language) := by
        simp [specCounts, sumFor, Counts.add, Counts.ofLoc]
      rw [key]
      split
      · simp [Counts.add, Option.getD]; omega
      · rename_i hm
        have z : specCounts h x.language = Counts.zero := by
          have : h.filter (fun l => decide (l.language = x.language)) = [] := by
            rw [List.filter_eq_nil_iff]
            intro a ha
            simp only [decide_eq_true_eq]
            intro he
            exact hm (List.mem_map.2 ⟨a, ha, he⟩)
          simp [specCounts, sumFor, this, Counts.zero]
        rw [z]; simp [Counts.add, Counts.zero]
    · have hx' : ¬ lang = x.language := fun h2 => hx h2.symm
      have key : specCounts (x :: h) lang = specCounts h lang := by
        simp [specCounts, sumFor, hx]
      simp only [hx, if_false, langs, List.map_cons, List.mem_cons, hx', false_or, key]

/-! ### C01: per-language totals -/

/-- C01.  After any history of additions to a fresh list, looking up a language
returns the field-wise sums of everything added for it, or nothing if it was
never added. -/
theorem C01_lookup_is_sum (h : List Loc) (lang : String) :
    ((built h).getLoc lang).map Counts.ofLoc =
      if ∃ l ∈ h, l.language = lang then some (specCounts h lang) else none := by
  have := view_foldl h [] lang
  unfold view built at *
  rw [this]
  have e : (lang ∈ langs h) ↔ ∃ l ∈ h, l.language = lang := by simp [langs]
  simp only [e]
  split
  · simp [LocList.getLoc, Counts.add, Counts.zero]
  · simp [LocList.getLoc]

/-- C01.  The entry found carries the language asked for, and no language occurs
twice in the list. -/
theorem C01_one_entry_per_language (h : List Loc) :
    ((built h).map Loc.language).Nodup ∧
    ∀ lang e, (built h).getLoc lang = some e → e.language = lang := by
  refine ⟨nodup_foldl h [] (by simp [langs]), ?_⟩
  intro lang e he
  exact getLoc_language _ _ _ he

/-- Non-vacuity: a history with two languages, one of them twice. -/
example :
    (built [⟨"c", 1, 2, 3, 1⟩, ⟨"ruby", 5, 0, 0, 1⟩, ⟨"c", 10, 20, 30, 1⟩]).getLoc "c"
      = some ⟨"c", 11, 22, 33, 2⟩ := by decide +kernel

/-! ### C02: grand totals -/

theorem sumAll_addLoc (f : Loc → Int)
    (hf : ∀ a b : Loc, a.language = b.language → f (a.addLoc b) = f a + f b)
    (l : LocList) (x : Loc) : sumAll f (l.addLoc x) = sumAll f l + f x := by
  induction l with
  | nil => simp [LocList.addLoc]
  | cons e rest ih =>
    unfold LocList.addLoc
    split
    · rename_i h; simp [hf e x h]; omega
    · simp [ih]; omega

theorem sumAll_foldl (f : Loc → Int)
    (hf : ∀ a b : Loc, a.language = b.language → f (a.addLoc b) = f a + f b)
    (h : List Loc) (l : LocList) :
    sumAll f (h.foldl LocList.addLoc l) = sumAll f l + sumAll f h := by
  induction h generalizing l with
  | nil => simp
  | cons x h ih => simp only [List.foldl_cons, ih, sumAll_addLoc f hf, sumAll_cons]; omega

theorem hf_code (a b : Loc) (h : a.language = b.language) :
    (a.addLoc b).code = a.code + b.code := by simp [Loc.addLoc, h]
theorem hf_comments (a b : Loc) (h : a.language = b.language) :
    (a.addLoc b).comments = a.comments + b.comments := by simp [Loc.addLoc, h]
theorem hf_blanks (a b : Loc) (h : a.language = b.language) :
    (a.addLoc b).blanks = a.blanks + b.blanks := by simp [Loc.addLoc, h]
theorem hf_filecount (a b : Loc) (h : a.language = b.language) :
    (a.addLoc b).filecount = a.filecount + b.filecount := by simp [Loc.addLoc, h]
theorem hf_total (a b : Loc) (h : a.language = b.language) :
    (a.addLoc b).total = a.total + b.total := by simp [Loc.addLoc, Loc.total, h]; omega

/-- C02.  The totals of a list are the sums over the whole history. -/
theorem C02_totals (h : List Loc) :
    (built h).code = (h.map Loc.code).sum ∧
    (built h).comments = (h.map Loc.comments).sum ∧
    (built h).blanks = (h.map Loc.blanks).sum ∧
    (built h).filecount = (h.map Loc.filecount).sum ∧
    (built h).total = (h.map Loc.code).sum + (h.map Loc.comments).sum + (h.map Loc.blanks).sum := by
  have t : sumAll Loc.total h = sumAll Loc.code h + sumAll Loc.comments h + sumAll Loc.blanks h := by
    induction h with
    | nil => rfl
    | cons a h ih => simp [ih, Loc.total]; omega
  simp only [LocList.code, LocList.comments, LocList.blanks, LocList.filecount, LocList.total,
    sumLoop_eq, built, sumAll_foldl _ hf_code, sumAll_foldl _ hf_comments,
    sumAll_foldl _ hf_blanks, sumAll_foldl _ hf_filecount, sumAll_foldl _ hf_total, t]
  simp [sumAll]

/-- C02.  The total of any list (however obtained) is code + comments + blanks. -/
theorem C02_total_is_sum (l : LocList) : l.total = l.code + l.comments + l.blanks := by
  simp only [LocList.total, LocList.code, LocList.comments, LocList.blanks, sumLoop_eq]
  induction l with
  | nil => rfl
  | cons a l ih => simp only [sumAll_cons, ih, Loc.total]; omega

/-- C02.  The order of the additions matters neither for lookups nor for totals. -/
theorem C02_order_independent (h h' : List Loc) (hp : h.Perm h') :
    (∀ lang, ((built h).getLoc lang).map Counts.ofLoc
           = ((built h').getLoc lang).map Counts.ofLoc) ∧
    (built h).code = (built h').code ∧ (built h).comments = (built h').comments ∧
    (built h).blanks = (built h').blanks ∧ (built h).total = (built h').total ∧
    (built h).filecount = (built h').filecount := by
  refine ⟨?_, ?_⟩
  · intro lang
    rw [C01_lookup_is_sum, C01_lookup_is_sum]
    have e : (∃ l ∈ h, l.language = lang) ↔ (∃ l ∈ h', l.language = lang) := by
      simp only [hp.mem_iff]
    simp only [e]
    have : specCounts h lang = specCounts h' lang := by
      simp [specCounts, sumFor_perm _ lang hp]
    rw [this]
  · obtain ⟨a1, a2, a3, a4, a5⟩ := C02_totals h
    obtain ⟨b1, b2, b3, b4, b5⟩ := C02_totals h'
    have p1 : (h.map Loc.code).sum = (h'.map Loc.code).sum := sumAll_perm Loc.code hp
    have p2 : (h.map Loc.comments).sum = (h'.map Loc.comments).sum := sumAll_perm Loc.comments hp
    have p3 : (h.map Loc.blanks).sum = (h'.map Loc.blanks).sum := sumAll_perm Loc.blanks hp
    have p4 : (h.map Loc.filecount).sum = (h'.map Loc.filecount).sum :=
      sumAll_perm Loc.filecount hp
    rw [a1, a2, a3, a4, a5, b1, b2, b3, b4, b5, p1, p2, p3, p4]
    exact ⟨rfl, rfl, rfl, rfl, rfl⟩

example : [(⟨"c", 1, 2, 3, 1⟩ : Loc), ⟨"ruby", 5, 0, 0, 1⟩].Perm
    [⟨"ruby", 5, 0, 0, 1⟩, ⟨"c", 1, 2, 3, 1⟩] := by decide

/-! ### C03: merging lists -/

theorem langs_foldl (h : List Loc) (l : LocList) (lang : String) :
    lang ∈ langs (h.foldl LocList.addLoc l) ↔ lang ∈ langs l ∨ lang ∈ langs h := by
  induction h generalizing l with
  | nil => simp [langs]
  | cons x h ih =>
    have hx : lang ∈ langs (x :: h) ↔ lang = x.language ∨ lang ∈ langs h := by simp [langs]
    simp only [List.foldl_cons, ih, langs_addLoc, hx]
    by_cases hm : x.language ∈ langs l
    · simp only [hm, if_true]
      constructor
      · rintro (h1 | h1) <;> simp [h1]
      · rintro (h1 | h1 | h1)
        · simp [h1]
        · subst h1; exact Or.inl hm
        · simp [h1]
    · simp only [hm, if_false, List.mem_append, List.mem_singleton]
      constructor
      · rintro ((h1 | h1) | h1) <;> simp [h1]
      · rintro (h1 | h1 | h1) <;> simp [h1]

theorem sumFor_eq_view (l : LocList) (lang : String) (hn : (langs l).Nodup) :
    specCounts l lang = (view l lang).getD Counts.zero := by
  induction l with
  | nil => simp [specCounts, sumFor, view, LocList.getLoc, Counts.zero]
  | cons e rest ih =>
    simp only [langs, List.map_cons, List.nodup_cons] at hn
    have ih := ih hn.2
    by_cases h : e.language = lang
    · subst h
      have : rest.filter (fun l => decide (l.language = e.language)) = [] := by
        rw [List.filter_eq_nil_iff]
        intro a ha
        simp only [decide_eq_true_eq]
        intro he
        exact hn.1 (List.mem_map.2 ⟨a, ha, he⟩)
      simp [specCounts, sumFor, this, view, LocList.getLoc, Counts.ofLoc]
    · simp only [specCounts, sumFor] at ih ⊢
      simp only [view, LocList.getLoc, h, if_false, List.filter_cons, decide_false]
      simpa [view] using ih

/-- What a lookup shows, with absent languages shown as zero counts. -/
def shown (l : LocList) (lang : String) : Counts :=
  ((l.getLoc lang).map Counts.ofLoc).getD ⟨0, 0, 0, 0⟩

/-- C03.  Adding one list to another adds the lookups of every language and the
grand totals (for lists without duplicate languages, i.e. all lists built
through the API, see C01). -/
theorem C03_merge (h1 h2 : List Loc) (lang : String) :
    shown ((built h1).addLocList (built h2)) lang =
      ⟨(shown (built h1) lang).code + (shown (built h2) lang).code,
       (shown (built h1) lang).comments + (shown (built h2) lang).comments,
       (shown (built h1) lang).blanks + (shown (built h2) lang).blanks,
       (shown (built h1) lang).filecount + (shown (built h2) lang).filecount⟩ ∧
    ((built h1).addLocList (built h2)).total = (built h1).total + (built h2).total ∧
    ((built h1).addLocList (built h2)).filecount
      = (built h1).filecount + (built h2).filecount ∧
    (((built h1).addLocList (built h2)).getLoc lang = none ↔
       (built h1).getLoc lang = none ∧ (built h2).getLoc lang = none) := by
  have n2 : (langs (built h2)).Nodup := (C01_one_entry_per_language h2).1
  refine ⟨?_, ?_, ?_, ?_⟩
  · have v := view_foldl (built h2) (built h1) lang
    have s := sumFor_eq_view (built h2) lang n2
    change (view ((built h1).addLocList (built h2)) lang).getD Counts.zero = _
    change view ((built h1).addLocList (built h2)) lang = _ at v
    rw [v]
    split
    · rw [s]; rfl
    · rename_i hm
      have hz : view (built h2) lang = none := by
        have := (getLoc_none_iff (built h2) lang).2 hm
        simp [view, this]
      have hz' : shown (built h2) lang = Counts.zero := by
        change (view (built h2) lang).getD Counts.zero = _
        rw [hz]; rfl
      rw [hz']
      change shown (built h1) lang = _
      simp [Counts.zero]
  · simp [LocList.total, sumLoop_eq, LocList.addLocList, sumAll_foldl _ hf_total]
  · simp [LocList.filecount, sumLoop_eq, LocList.addLocList, sumAll_foldl _ hf_filecount]
  · rw [getLoc_none_iff, getLoc_none_iff, getLoc_none_iff, LocList.addLocList, langs_foldl]
    simp

/-- C03.  Merging any number of lists into a fresh one shows, for every language,
the same counts as adding all of their Locs one by one. -/
theorem C03_merge_many (hs : List (List Loc)) (lang : String) :
    shown ((hs.map built).foldl LocList.addLocList []) lang = shown (built hs.flatten) lang := by
  have gen : ∀ (hs : List (List Loc)) (l : LocList) (h : List Loc),
      (langs l).Nodup →
      (view l lang).getD Counts.zero = (view (built h) lang).getD Counts.zero →
      (view ((hs.map built).foldl LocList.addLocList l) lang).getD Counts.zero
        = (view (built (h ++ hs.flatten)) lang).getD Counts.zero := by
    intro hs
    induction hs with
    | nil => intro l h _ he; simpa using he
    | cons x hs ih =>
      intro l h hl he
      simp only [List.map_cons, List.foldl_cons, List.flatten_cons]
      rw [← List.append_assoc]
      apply ih
      · exact nodup_foldl _ _ hl
      · have v := view_foldl (built x) l lang
        have s := sumFor_eq_view (built x) lang (C01_one_entry_per_language x).1
        have vx := view_foldl x (built h) lang
        have e1 : built (h ++ x) = x.foldl LocList.addLoc (built h) := by
          simp [built]
        rw [e1, vx]
        change view (l.addLocList (built x)) lang = _ at v
        rw [v]
        have m : lang ∈ langs (built x) ↔ lang ∈ langs x := by
          unfold built; rw [langs_foldl]; simp [langs]
        have sx : specCounts (built x) lang = specCounts x lang := by
          rw [s]
          have := view_foldl x [] lang
          change view (built x) lang = _ at this
          rw [this]
          split
          · simp [view, LocList.getLoc, Counts.add, Counts.zero]
          · rename_i hm
            have : x.filter (fun l => decide (l.language = lang)) = [] := by
              rw [List.filter_eq_nil_iff]
              intro a ha
              simp only [decide_eq_true_eq]
              intro he
              exact hm (List.mem_map.2 ⟨a, ha, he⟩)
            simp [view, LocList.getLoc, specCounts, sumFor, this, Counts.zero]
        simp only [m, sx]
        split
        · simp [he]
        · exact he
  have := gen hs [] [] (by simp [langs]) rfl
  simpa [shown, view, Counts.zero] using this

/-! ### C04: compaction -/

theorem compact_append (l acc : LocList) (hn : (langs (acc ++ l)).Nodup) :
    l.foldl (fun acc e => if e.total ≠ 0 then LocList.addLoc acc e else acc) acc
      = acc ++ l.filter (fun e => decide (e.total ≠ 0)) := by
  induction l generalizing acc with
  | nil => simp
  | cons e l ih =>
    have hadd : LocList.addLoc acc e = acc ++ [e] := by
      have hnot : e.language ∉ langs acc := by
        simp only [langs, List.map_append, List.map_cons, List.nodup_append] at hn
        intro hm
        exact hn.2.2 _ hm _ (by simp) rfl
      clear ih hn
      induction acc with
      | nil => rfl
      | cons a acc ih2 =>
        simp only [langs, List.map_cons, List.mem_cons, not_or] at hnot
        unfold LocList.addLoc
        have : ¬ a.language = e.language := fun h => hnot.1 h.symm
        simp only [this, if_false, List.cons_append]
        rw [ih2 hnot.2]
    simp only [List.foldl_cons]
    by_cases h : e.total = 0
    · simp only [h, ne_eq, not_true_eq_false, if_false]
      rw [ih]
      · simp [h]
      · simp only [langs, List.map_append, List.map_cons, List.nodup_append] at hn ⊢
        refine ⟨hn.1, ?_, ?_⟩
        · exact (List.nodup_cons.1 hn.2.1).2
        · intro a ha b hb; exact hn.2.2 a ha b (by simp [hb])
    · simp only [ne_eq, h, not_false_eq_true, if_true]
      rw [hadd, ih]
      · simp [h]
      · simpa [langs] using hn

/-- C04.  Compacting a list built through the API keeps exactly the entries with a
non-zero number of lines, in order and unchanged. -/
theorem C04_compact_is_filter (h : List Loc) :
    (built h).newCompact = (built h).filter (fun e => decide (e.code + e.comments + e.blanks ≠ 0)) := by
  have n : (langs ([] ++ built h)).Nodup := by
    rw [List.nil_append]; exact (C01_one_entry_per_language h).1
  have := compact_append (built h) [] n
  rw [List.nil_append] at this
  exact this

/-- C04.  The number of lines is unchanged by compaction. -/
theorem C04_compact_total (h : List Loc) : (built h).newCompact.total = (built h).total := by
  rw [C04_compact_is_filter]
  simp only [LocList.total, sumLoop_eq]
  generalize built h = l
  induction l with
  | nil => rfl
  | cons a l ih =>
    simp only [List.filter_cons]
    split
    · rw [sumAll_cons, ih, sumAll_cons]
    · rename_i hz
      have hz : a.total = 0 := by simpa [Loc.total] using hz
      rw [ih, sumAll_cons, hz]; omega

/-- C04.  With non-negative counts (all the counts ohcount produces) the code,
comment and blank totals are unchanged as well. -/
theorem C04_compact_parts (h : List Loc)
    (hpos : ∀ l ∈ h, 0 ≤ l.code ∧ 0 ≤ l.comments ∧ 0 ≤ l.blanks) :
    (built h).newCompact.code = (built h).code ∧
    (built h).newCompact.comments = (built h).comments ∧
    (built h).newCompact.blanks = (built h).blanks := by
  rw [C04_compact_is_filter]
  have pos : ∀ e ∈ built h, 0 ≤ e.code ∧ 0 ≤ e.comments ∧ 0 ≤ e.blanks := by
    have gen : ∀ (h : List Loc) (l : LocList),
        (∀ l ∈ h, 0 ≤ l.code ∧ 0 ≤ l.comments ∧ 0 ≤ l.blanks) →
        (∀ e ∈ l, 0 ≤ e.code ∧ 0 ≤ e.comments ∧ 0 ≤ e.blanks) →
        ∀ e ∈ h.foldl LocList.addLoc l, 0 ≤ e.code ∧ 0 ≤ e.comments ∧ 0 ≤ e.blanks := by
      intro h
      induction h with
      | nil => intro l _ hl; exact hl
      | cons x h ih =>
        intro l hh hl
        simp only [List.foldl_cons]
        apply ih
        · intro a ha; exact hh a (by simp [ha])
        · have hx := hh x (by simp)
          clear ih hh
          induction l with
          | nil => intro e he; simp [LocList.addLoc] at he; subst he; exact hx
          | cons a l ih =>
            intro e he
            unfold LocList.addLoc at he
            split at he
            · rcases List.mem_cons.1 he with he | he
              · subst he
                have ha := hl a (by simp)
                unfold Loc.addLoc
                split <;> (refine ⟨?_, ?_, ?_⟩ <;> dsimp only <;> omega)
              · exact hl e (by simp [he])
            · rcases List.mem_cons.1 he with he | he
              · subst he; exact hl e (by simp)
              · exact ih (fun e he => hl e (by simp [he])) e he
    exact gen h [] hpos (by simp)
  simp only [LocList.code, LocList.comments, LocList.blanks, sumLoop_eq]
  generalize built h = l at pos
  induction l with
  | nil => exact ⟨rfl, rfl, rfl⟩
  | cons a l ih =>
    have pa := pos a (by simp)
    obtain ⟨i1, i2, i3⟩ := ih (fun e he => pos e (by simp [he]))
    simp only [List.filter_cons]
    split
    · simp only [sumAll_cons, i1, i2, i3, and_self]
    · rename_i hz
      have hz : a.code + a.comments + a.blanks = 0 := by simpa using hz
      simp only [sumAll_cons, i1, i2, i3]
      omega

example : ∀ l ∈ [(⟨"c", 1, 2, 3, 1⟩ : Loc), ⟨"ruby", 0, 0, 0, 1⟩],
    0 ≤ l.code ∧ 0 ≤ l.comments ∧ 0 ≤ l.blanks := by decide

/-- C04, sharpness: without non-negativity the parts can change; and the *file*
count is not preserved by compaction. -/
theorem C04_filecount_can_change :
    ∃ h : List Loc, (built h).newCompact.filecount ≠ (built h).filecount :=
  ⟨[⟨"c", 0, 0, 0, 1⟩], by decide +kernel⟩

/-! ### C05, C06, C07: delta lists -/

/-- The delta list obtained from a fresh one by adding a history in order. -/
def dbuilt (h : List LocDelta) : LocDeltaList := h.foldl LocDeltaList.addDelta []

/-- Field-wise sum of the deltas of one language (specification). -/
def dspec (h : List LocDelta) (lang : String) : LocDelta :=
  let s := h.filter (fun d => decide (d.language = lang))
  { language := lang
    codeAdded := sumAll LocDelta.codeAdded s
    codeRemoved := sumAll LocDelta.codeRemoved s
    commentsAdded := sumAll LocDelta.commentsAdded s
    commentsRemoved := sumAll LocDelta.commentsRemoved s
    blanksAdded := sumAll LocDelta.blanksAdded s
    blanksRemoved := sumAll LocDelta.blanksRemoved s }

/-- C05, the full property as one would expect it. -/
def C05_full : Prop := ∀ (h : List LocDelta) (lang : String),
  (dbuilt h).getDelta lang =
    if ∃ d ∈ h, d.language = lang then some (dspec h lang) else none

/-- C05 is false of the code: adding a second delta for a language that is not the
first language of the list loses it in the lookup. -/
theorem C05_negation : ¬ C05_full := by
  intro hf
  have := hf [⟨"c", 1, 0, 0, 0, 0, 0⟩, ⟨"ruby", 1, 0, 0, 0, 0, 0⟩, ⟨"ruby", 1, 0, 0, 0, 0, 0⟩] "ruby"
  revert this
  decide +kernel

theorem daddDelta_language (a b : LocDelta) : (a.addDelta b).language = a.language := by
  unfold LocDelta.addDelta; split <;> rfl

/-- Shape of a delta list after a history that starts with `d0`. -/
theorem dfoldl_shape (h : List LocDelta) (hd : LocDelta) (rest : LocDeltaList) :
    h.foldl LocDeltaList.addDelta (hd :: rest) =
      (h.filter (fun d => decide (d.language = hd.language))).foldl LocDelta.addDelta hd
        :: (rest ++ h.filter (fun d => decide (d.language ≠ hd.language))) := by
  induction h generalizing hd rest with
  | nil => simp
  | cons x h ih =>
    simp only [List.foldl_cons]
    by_cases he : hd.language = x.language
    · have he' : x.language = hd.language := he.symm
      have : LocDeltaList.addDelta (hd :: rest) x = hd.addDelta x :: rest := by
        simp [LocDeltaList.addDelta, he]
      rw [this, ih]
      simp [daddDelta_language, he']
    · have he' : ¬ x.language = hd.language := fun h => he h.symm
      have : LocDeltaList.addDelta (hd :: rest) x = hd :: (rest ++ [x]) := by
        simp [LocDeltaList.addDelta, he]
      rw [this, ih]
      simp [he']

theorem dfold_head (s : List LocDelta) (hd : LocDelta) (hs : ∀ d ∈ s, d.language = hd.language) :
    s.foldl LocDelta.addDelta hd =
      { language := hd.language
        codeAdded := hd.codeAdded + sumAll LocDelta.codeAdded s
        codeRemoved := hd.codeRemoved + sumAll LocDelta.codeRemoved s
        commentsAdded := hd.commentsAdded + sumAll LocDelta.commentsAdded s
        commentsRemoved := hd.commentsRemoved + sumAll LocDelta.commentsRemoved s
        blanksAdded := hd.blanksAdded + sumAll LocDelta.blanksAdded s
        blanksRemoved := hd.blanksRemoved + sumAll LocDelta.blanksRemoved s } := by
  induction s generalizing hd with
  | nil => simp
  | cons x s ih =>
    have hx : hd.language = x.language := (hs x (by simp)).symm
    simp only [List.foldl_cons]
    rw [ih]
    · simp [LocDelta.addDelta, hx]; omega
    · intro d hd'
      rw [daddDelta_language]
      exact hs d (by simp [hd'])

/-- C05 (partial): exact lookups for the language that was added first, and for
every language that was added at most once.  Missing: languages added several
times that were not the first (for those the statement is false, see
`C05_negation`). -/
theorem C05_lookup_partial (d0 : LocDelta) (h : List LocDelta) (lang : String)
    (hl : lang = d0.language ∨
          ((d0 :: h).filter (fun d => decide (d.language = lang))).length ≤ 1) :
    (dbuilt (d0 :: h)).getDelta lang =
      if ∃ d ∈ d0 :: h, d.language = lang then some (dspec (d0 :: h) lang) else none := by
  have shape : dbuilt (d0 :: h) = _ := dfoldl_shape h d0 []
  rw [shape]
  by_cases e : lang = d0.language
  · subst e
    have : ∃ d ∈ d0 :: h, d.language = d0.language := ⟨d0, by simp, rfl⟩
    simp only [this, if_true]
    rw [dfold_head]
    · simp [LocDeltaList.getDelta, dspec]
    · intro d hd; simpa using (List.mem_filter.1 hd).2
  · have e' : ¬ d0.language = lang := fun h => e h.symm
    have hl : (h.filter (fun d => decide (d.language = lang))).length ≤ 1 := by
      rcases hl with hl | hl
      · exact absurd hl e
      · simpa [e'] using hl
    have lang_head : (List.foldl LocDelta.addDelta d0
        (h.filter (fun d => decide (d.language = d0.language)))).language = d0.language := by
      rw [dfold_head]
      intro d hd; simpa using (List.mem_filter.1 hd).2
    unfold LocDeltaList.getDelta
    rw [lang_head]
    simp only [e', if_false, List.nil_append]
    have key : ∀ (h : List LocDelta), (h.filter (fun d => decide (d.language = lang))).length ≤ 1 →
        LocDeltaList.getDelta (h.filter (fun d => decide (d.language ≠ d0.language))) lang =
        if ∃ d ∈ h, d.language = lang then some (dspec h lang) else none := by
      intro h
      induction h with
      | nil => intro _; simp [LocDeltaList.getDelta]
      | cons x h ih =>
        intro hlen
        by_cases hx : x.language = lang
        · have hne : x.language ≠ d0.language := fun h => e (hx.symm.trans h)
          have hlen0 : h.filter (fun d => decide (d.language = lang)) = [] := by
            simpa [hx] using hlen
          simp only [ne_eq, List.filter_cons, hne, not_false_eq_true, decide_true, if_true]
          unfold LocDeltaList.getDelta
          simp only [hx, if_true]
          have : ∃ d ∈ x :: h, d.language = lang := ⟨x, by simp, hx⟩
          simp only [this, if_true]
          simp [dspec, hx, hlen0]
          cases x; simp_all
        · have hlen' : (h.filter (fun d => decide (d.language = lang))).length ≤ 1 := by
            simpa [hx] using hlen
          have ih := ih hlen'
          have e1 : (∃ d ∈ x :: h, d.language = lang) ↔ ∃ d ∈ h, d.language = lang := by
            simp [hx]
          have e2 : dspec (x :: h) lang = dspec h lang := by simp [dspec, hx]
          simp only [e1, e2]
          rw [← ih]
          simp only [List.filter_cons]
          split
          · conv => lhs; unfold LocDeltaList.getDelta
            simp [hx]
          · rfl
    rw [key h hl]
    have e1 : (∃ d ∈ d0 :: h, d.language = lang) ↔ ∃ d ∈ h, d.language = lang := by
      simp [e']
    have e2 : dspec (d0 :: h) lang = dspec h lang := by simp [dspec, e']
    simp only [e1, e2]

example : "ruby" = (⟨"c", 1, 0, 0, 0, 0, 0⟩ : LocDelta).language ∨
    (([⟨"c", 1, 0, 0, 0, 0, 0⟩, ⟨"ruby", 1, 0, 0, 0, 0, 0⟩, ⟨"c", 4, 0, 0, 0, 0, 0⟩] :
      List LocDelta).filter (fun d => decide (d.language = "ruby"))).length ≤ 1 := by
  decide +kernel

/-- C05, what the defect does in general: a language that is not the first one is
found with the *first* delta added for it, never with the sum. -/
theorem C05_actual_behaviour (d0 : LocDelta) (h : List LocDelta) (lang : String)
    (hne : d0.language ≠ lang) :
    (dbuilt (d0 :: h)).getDelta lang = h.find? (fun d => decide (d.language = lang)) := by
  have shape : dbuilt (d0 :: h) = _ := dfoldl_shape h d0 []
  rw [shape]
  have lang_head : (List.foldl LocDelta.addDelta d0
      (h.filter (fun d => decide (d.language = d0.language)))).language = d0.language := by
    rw [dfold_head]
    intro d hd; simpa using (List.mem_filter.1 hd).2
  unfold LocDeltaList.getDelta
  rw [lang_head]
  simp only [hne, if_false, List.nil_append]
  induction h with
  | nil => simp [LocDeltaList.getDelta]
  | cons x h ih =>
    by_cases hx : x.language = lang
    · have hxd : x.language ≠ d0.language := fun h => hne (h.symm.trans hx)
      have h1 : decide (x.language ≠ d0.language) = true := by simpa using hxd
      have h2 : decide (x.language = lang) = true := by simpa using hx
      rw [List.filter_cons, if_pos h1, List.find?_cons, h2]
      simp [LocDeltaList.getDelta, hx]
    · have ih := ih (dfoldl_shape h d0 []) (by
        rw [dfold_head]
        intro d hd; simpa using (List.mem_filter.1 hd).2)
      simp only [List.filter_cons, List.find?_cons, hx, decide_false]
      rw [← ih]
      split
      · conv => lhs; unfold LocDeltaList.getDelta
        simp [hx]
      · rfl

/-- An additive measurement of a delta. -/
def Additive (f : LocDelta → Int) : Prop :=
  ∀ a b : LocDelta, a.language = b.language → f (a.addDelta b) = f a + f b

theorem dsum_add (f : LocDelta → Int) (hf : Additive f) (l : LocDeltaList) (x : LocDelta) :
    sumAll f (l.addDelta x) = sumAll f l + f x := by
  cases l with
  | nil => simp [LocDeltaList.addDelta]
  | cons e rest =>
    by_cases h : e.language = x.language
    · simp [LocDeltaList.addDelta, hf e x h, h]; omega
    · simp [LocDeltaList.addDelta, h, sumAll_append]; omega

theorem dsum_foldl (f : LocDelta → Int) (hf : Additive f) (h : List LocDelta) (l : LocDeltaList) :
    sumAll f (h.foldl LocDeltaList.addDelta l) = sumAll f l + sumAll f h := by
  induction h generalizing l with
  | nil => simp
  | cons x h ih => simp only [List.foldl_cons, ih, dsum_add f hf, sumAll_cons]; omega

theorem add_codeAdded : Additive LocDelta.codeAdded := by
  intro a b h; simp [LocDelta.addDelta, h]
theorem add_codeRemoved : Additive LocDelta.codeRemoved := by
  intro a b h; simp [LocDelta.addDelta, h]
theorem add_commentsAdded : Additive LocDelta.commentsAdded := by
  intro a b h; simp [LocDelta.addDelta, h]
theorem add_commentsRemoved : Additive LocDelta.commentsRemoved := by
  intro a b h; simp [LocDelta.addDelta, h]
theorem add_blanksAdded : Additive LocDelta.blanksAdded := by
  intro a b h; simp [LocDelta.addDelta, h]
theorem add_blanksRemoved : Additive LocDelta.blanksRemoved := by
  intro a b h; simp [LocDelta.addDelta, h]
theorem add_netCode : Additive LocDelta.netCode := by
  intro a b h; simp [LocDelta.addDelta, LocDelta.netCode, h]; omega
theorem add_netComments : Additive LocDelta.netComments := by
  intro a b h; simp [LocDelta.addDelta, LocDelta.netComments, h]; omega
theorem add_netBlanks : Additive LocDelta.netBlanks := by
  intro a b h; simp [LocDelta.addDelta, LocDelta.netBlanks, h]; omega
theorem add_netTotal : Additive LocDelta.netTotal := by
  intro a b h
  simp [LocDelta.addDelta, LocDelta.netTotal, LocDelta.netCode, LocDelta.netComments,
    LocDelta.netBlanks, h]; omega

/-- C06.  The grand totals of a delta list are the sums over the whole history, in
spite of the lookup defect. -/
theorem C06_delta_totals (h : List LocDelta) :
    (dbuilt h).codeAdded = (h.map LocDelta.codeAdded).sum ∧
    (dbuilt h).codeRemoved = (h.map LocDelta.codeRemoved).sum ∧
    (dbuilt h).commentsAdded = (h.map LocDelta.commentsAdded).sum ∧
    (dbuilt h).commentsRemoved = (h.map LocDelta.commentsRemoved).sum ∧
    (dbuilt h).blanksAdded = (h.map LocDelta.blanksAdded).sum ∧
    (dbuilt h).blanksRemoved = (h.map LocDelta.blanksRemoved).sum := by
  simp only [LocDeltaList.codeAdded, LocDeltaList.codeRemoved, LocDeltaList.commentsAdded,
    LocDeltaList.commentsRemoved, LocDeltaList.blanksAdded, LocDeltaList.blanksRemoved,
    dsumLoop_eq, dbuilt, dsum_foldl _ add_codeAdded, dsum_foldl _ add_codeRemoved,
    dsum_foldl _ add_commentsAdded, dsum_foldl _ add_commentsRemoved,
    dsum_foldl _ add_blanksAdded, dsum_foldl _ add_blanksRemoved]
  simp [sumAll]

/-- C06.  The net totals of any delta list are added minus removed, and the net
total is the sum of the three net values. -/
theorem C06_net_totals (l : LocDeltaList) :
    l.netCode = l.codeAdded - l.codeRemoved ∧
    l.netComments = l.commentsAdded - l.commentsRemoved ∧
    l.netBlanks = l.blanksAdded - l.blanksRemoved ∧
    l.netTotal = l.netCode + l.netComments + l.netBlanks := by
  simp only [LocDeltaList.netCode, LocDeltaList.netComments, LocDeltaList.netBlanks,
    LocDeltaList.netTotal, LocDeltaList.codeAdded, LocDeltaList.codeRemoved,
    LocDeltaList.commentsAdded, LocDeltaList.commentsRemoved, LocDeltaList.blanksAdded,
    LocDeltaList.blanksRemoved, dsumLoop_eq]
  induction l with
  | nil => simp
  | cons a l ih =>
    simp only [sumAll_cons, LocDelta.netCode, LocDelta.netComments, LocDelta.netBlanks,
      LocDelta.netTotal] at *
    omega

/-- C06.  Merging delta lists adds every grand total. -/
theorem C06_merge_totals (l m : LocDeltaList) :
    (l.addDeltaList m).codeAdded = l.codeAdded + m.codeAdded ∧
    (l.addDeltaList m).codeRemoved = l.codeRemoved + m.codeRemoved ∧
    (l.addDeltaList m).commentsAdded = l.commentsAdded + m.commentsAdded ∧
    (l.addDeltaList m).commentsRemoved = l.commentsRemoved + m.commentsRemoved ∧
    (l.addDeltaList m).blanksAdded = l.blanksAdded + m.blanksAdded ∧
    (l.addDeltaList m).blanksRemoved = l.blanksRemoved + m.blanksRemoved ∧
    (l.addDeltaList m).netTotal = l.netTotal + m.netTotal := by
  simp [LocDeltaList.codeAdded, LocDeltaList.codeRemoved, LocDeltaList.commentsAdded,
    LocDeltaList.commentsRemoved, LocDeltaList.blanksAdded, LocDeltaList.blanksRemoved,
    LocDeltaList.netTotal, LocDeltaList.addDeltaList,
    dsumLoop_eq, dsum_foldl _ add_codeAdded, dsum_foldl _ add_codeRemoved,
    dsum_foldl _ add_commentsAdded, dsum_foldl _ add_commentsRemoved,
    dsum_foldl _ add_blanksAdded, dsum_foldl _ add_blanksRemoved, dsum_foldl _ add_netTotal]

/-- C07.  A delta counts as changed exactly when one of its six counters is
non-zero. -/
theorem C07_changed_iff (d : LocDelta) :
    d.isChanged = true ↔
      (d.codeAdded ≠ 0 ∨ d.codeRemoved ≠ 0 ∨ d.commentsAdded ≠ 0 ∨ d.commentsRemoved ≠ 0 ∨
       d.blanksAdded ≠ 0 ∨ d.blanksRemoved ≠ 0) := by
  simp [LocDelta.isChanged, or_assoc]

theorem dcompact_sum (f : LocDelta → Int) (hf : Additive f)
    (h0 : ∀ d : LocDelta, d.isChanged = false → f d = 0) (l acc : LocDeltaList) :
    sumAll f (l.foldl (fun acc e => if e.isChanged then LocDeltaList.addDelta acc e else acc) acc)
      = sumAll f acc + sumAll f l := by
  induction l generalizing acc with
  | nil => simp
  | cons a l ih =>
    simp only [List.foldl_cons, ih, sumAll_cons]
    split
    · rw [dsum_add f hf]; omega
    · rename_i h; rw [h0 a (by simpa using h)]; omega

/-- C07.  Compaction changes none of the grand totals. -/
theorem C07_compact_totals (l : LocDeltaList) :
    l.newCompact.codeAdded = l.codeAdded ∧ l.newCompact.codeRemoved = l.codeRemoved ∧
    l.newCompact.commentsAdded = l.commentsAdded ∧
    l.newCompact.commentsRemoved = l.commentsRemoved ∧
    l.newCompact.blanksAdded = l.blanksAdded ∧
    l.newCompact.blanksRemoved = l.blanksRemoved ∧
    l.newCompact.netTotal = l.netTotal := by
  have hz : ∀ d : LocDelta, d.isChanged = false →
      d.codeAdded = 0 ∧ d.codeRemoved = 0 ∧ d.commentsAdded = 0 ∧ d.commentsRemoved = 0 ∧
      d.blanksAdded = 0 ∧ d.blanksRemoved = 0 := by
    intro d h; simpa [LocDelta.isChanged, and_assoc] using h
  simp only [LocDeltaList.codeAdded, LocDeltaList.codeRemoved, LocDeltaList.commentsAdded,
    LocDeltaList.commentsRemoved, LocDeltaList.blanksAdded, LocDeltaList.blanksRemoved,
    LocDeltaList.netTotal, dsumLoop_eq, LocDeltaList.newCompact]
  refine ⟨?_, ?_, ?_, ?_, ?_, ?_, ?_⟩
  · rw [dcompact_sum _ add_codeAdded]; simp; intro d h; exact (hz d h).1
  · rw [dcompact_sum _ add_codeRemoved]; simp; intro d h; exact (hz d h).2.1
  · rw [dcompact_sum _ add_commentsAdded]; simp; intro d h; exact (hz d h).2.2.1
  · rw [dcompact_sum _ add_commentsRemoved]; simp; intro d h; exact (hz d h).2.2.2.1
  · rw [dcompact_sum _ add_blanksAdded]; simp; intro d h; exact (hz d h).2.2.2.2.1
  · rw [dcompact_sum _ add_blanksRemoved]; simp; intro d h; exact (hz d h).2.2.2.2.2
  · rw [dcompact_sum _ add_netTotal]; simp
    intro d h
    have := hz d h
    simp only [LocDelta.netTotal, LocDelta.netCode, LocDelta.netComments, LocDelta.netBlanks]
    omega

theorem dadd_new (acc : LocDeltaList) (e : LocDelta) (h : e.language ∉ acc.map LocDelta.language) :
    acc.addDelta e = acc ++ [e] := by
  cases acc with
  | nil => rfl
  | cons a acc =>
    simp only [List.map_cons, List.mem_cons, not_or] at h
    have : ¬ a.language = e.language := fun h' => h.1 h'.symm
    simp [LocDeltaList.addDelta, this]

/-- C07.  If the languages of a delta list are distinct, compaction keeps exactly the
changed entries, in order and unchanged. -/
theorem C07_compact_is_filter (l : LocDeltaList) (hn : (l.map LocDelta.language).Nodup) :
    l.newCompact = l.filter LocDelta.isChanged := by
  have gen : ∀ (l acc : LocDeltaList), ((acc ++ l).map LocDelta.language).Nodup →
      l.foldl (fun acc e => if e.isChanged then LocDeltaList.addDelta acc e else acc) acc
        = acc ++ l.filter LocDelta.isChanged := by
    intro l
    induction l with
    | nil => simp
    | cons e l ih =>
      intro acc hn
      simp only [List.map_append, List.map_cons, List.nodup_append] at hn
      simp only [List.foldl_cons, List.filter_cons]
      split
      · rw [dadd_new, ih]
        · simp
        · simp only [List.map_append, List.map_cons, List.nodup_append]
          obtain ⟨h1, h2, h3⟩ := hn
          have h2' := List.nodup_cons.1 h2
          refine ⟨⟨h1, by simp, ?_⟩, h2'.2, ?_⟩
          · intro a ha b hb
            have : b = e.language := by simpa using hb
            subst this
            exact h3 a ha _ (by simp)
          · intro a ha b hb
            rcases List.mem_append.1 ha with ha | ha
            · exact h3 a ha b (by simp [hb])
            · have : a = e.language := by simpa using ha
              subst this
              intro hab; subst hab; exact h2'.1 hb
        · intro hm; exact hn.2.2 _ hm _ (by simp) rfl
      · rw [ih]
        simp only [List.map_append, List.nodup_append]
        refine ⟨hn.1, (List.nodup_cons.1 hn.2.1).2, ?_⟩
        intro a ha b hb
        exact hn.2.2 a ha b (by simp [hb])
  simpa [LocDeltaList.newCompact] using gen l [] (by simpa using hn)

example : (([⟨"c", 1, 0, 0, 0, 0, 0⟩, ⟨"ruby", 0, 0, 0, 0, 0, 0⟩] : LocDeltaList).map
    LocDelta.language).Nodup := by decide

/-- C05, further consequence of the defect: adding a delta list to itself does not
terminate as soon as it contains a language different from the first one —
whatever the number of loop iterations allowed, the loop has not ended. -/
theorem C05_self_merge_diverges (d e : LocDelta) (hne : d.language ≠ e.language)
    (fuel : Nat) : LocDeltaList.addSelfLoop fuel 0 [d, e] = none := by
  -- after i ≥ 1 steps the list is `head :: e :: e :: ...` with at least one
  -- entry beyond position `i`
  have gen : ∀ (fuel i : Nat) (hd : LocDelta) (rest : LocDeltaList),
      hd.language = d.language → (∀ x ∈ rest, x.language = e.language) →
      1 ≤ i → i ≤ rest.length →
      LocDeltaList.addSelfLoop fuel i (hd :: rest) = none := by
    intro fuel
    induction fuel with
    | zero => intros; rfl
    | succ fuel ih =>
      intro i hd rest hh hr h1 hi
      unfold LocDeltaList.addSelfLoop
      obtain ⟨j, rfl⟩ : ∃ j, i = j + 1 := ⟨i - 1, by omega⟩
      have hj : j < rest.length := by omega
      simp only [List.getElem?_cons_succ, List.getElem?_eq_getElem hj]
      have hx : (rest[j]).language = e.language := hr _ (List.getElem_mem hj)
      have hne' : ¬ hd.language = (rest[j]).language := by rw [hh, hx]; exact hne
      simp only [LocDeltaList.addDelta, hne', if_false]
      apply ih
      · exact hh
      · intro x hx'
        rcases List.mem_append.1 hx' with hx' | hx'
        · exact hr x hx'
        · have : x = rest[j] := by simpa using hx'
          rw [this]; exact hx
      · omega
      · simp; omega
  cases fuel with
  | zero => rfl
  | succ fuel =>
    unfold LocDeltaList.addSelfLoop
    simp only [List.getElem?_cons_zero, LocDeltaList.addDelta, if_true]
    apply gen
    · exact daddDelta_language d d
    · simp
    · omega
    · simp

end Ohcount.LocProps
