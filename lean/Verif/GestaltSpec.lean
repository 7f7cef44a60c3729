import Verif.GestaltVal
/-
When a definition of ruby/gestalt/*definitions.rb holds of a project.  This does not mention the engine; `Holds_iff` at the end connects the two.
-/

namespace Ohcount.Gestalt

/-! ### The specification -/

/-- The parts of all files in one language each. -/
def parts (files : List Source) : List Breakdown := files.flatMap (·.breakdowns)

/-- The lines of code in a language. -/
def codeOf (files : List Source) (l : String) : Nat := (((parts files).filter fun b => b.name == l).map (·.codeCount)).sum

/-- The language is in the library's table and is not a markup language (category 1). -/
def counted (l : String) : Bool :=
  match categories.lookup l with
  | none => false
  | some cat => cat != 1

/-- All lines of code, without markup. -/
def codeAll (files : List Source) : Nat := (((parts files).filter fun b => counted b.name).map (·.codeCount)).sum

/-- The language occurs, with at least this share (in percent) of all code.  Without any code other than markup, any line of code is enough. -/
def Share (files : List Source) (l : String) (minPercent : Nat) : Prop :=
  (∃ b ∈ parts files, b.name = l) ∧ (codeAll files ≠ 0 → minPercent * codeAll files ≤ 100 * codeOf files l) ∧ (codeAll files = 0 → codeOf files l ≠ 0)

/-- The code of the file in a language (of the first part in this language). -/
def codeIn (f : Source) (l : String) : List String := ((f.breakdowns.filter fun b => b.name == l).map (·.code)).take 1

/-- The numbers for some texts together. -/
def over (texts : List String) (n : String → Nat) : Nat := (texts.map n).sum

/-- The first groups of some matches. -/
def firstGroups (ms : List (List (Option String))) : List String := ms.filterMap fun m => m.head?.join

/-- What a file counts for a test: a path that matches; for C headers, in C and C++ files, the groups of a match in either language (that is, two);
matches of keywords in a language, in all languages, or in C (in C++ if there is no C); imports of Java, `using` of C#; plugins or dependencies of
a Maven file; imports of a project file. -/
def seen (R : Ruby) (f : Source) : Test → Nat
  | .filename names => if R.is (filenameRe names) f.filepath then 1 else 0
  | .findFilenames _ _ => 0
  | .cHeader headers =>
    if f.polyglot = some "c" ∨ f.polyglot = some "cpp" then
      over (codeIn f "c" ++ codeIn f "cpp") fun s => ((R.groups (headerRe headers) s).getD []).length
    else 0
  | .keyword (some l) words => over (codeIn f l) fun s => (R.scan (keywordRe words) s).length
  | .keyword none words => over (f.breakdowns.map (·.code)) fun s => (R.scan (keywordRe words) s).length
  | .cKeyword words => over ((codeIn f "c" ++ codeIn f "cpp").take 1) fun s => (R.scan (keywordRe words) s).length
  | .javaImport re => over (codeIn f "java") fun s => ((firstGroups (R.scan importRe s)).filter fun i => R.is re i).length
  | .csharpUsing re => over (codeIn f "csharp") fun s => ((firstGroups (R.scan usingRe s)).filter fun i => R.is re i).length
  | .maven type group artifact =>
    if R.is pomRe f.filename then
      over (codeIn f "xml") fun s =>
        (((Maven.events R {} (R.xml s)).getD []).filter fun d => d.1 = type ∧ R.is group d.2.1 = true ∧ R.is artifact d.2.2 = true).length
    else 0
  | .csproj imp =>
    if R.is csprojRe f.filename then over (codeIn f "xml") fun s => ((csprojEvents R false (R.xml s)).filter fun i => R.is imp i).length
    else 0

/-- What all files together count for a test. -/
def hitsIn (R : Ruby) (files : List Source) (t : Test) : Nat := (files.map fun f => seen R f t).sum

/-- The files pass the test, with the minimum asked for. -/
def Passes (R : Ruby) (files : List Source) (min : Nat) : Test → Prop
  | .findFilenames re _ => ∃ f ∈ files, R.is re f.filename = true
  | t => min ≤ hitsIn R files t

mutual
/-- The rule holds of the files, `S` being the gestalts that the project has. -/
def Holds (R : Ruby) (files : List Source) (S : String → String → Prop) : Rule → Prop
  | .or rs => OneOf R files S rs
  | .and rs => Every R files S rs
  | .not [] => True
  | .not (r :: _) => ¬ Holds R files S r
  | .gestalt type name => S type name
  | .language l m => Share files l m
  | .file r => Passes R files r.min r.test
/-- One of the rules holds. -/
def OneOf (R : Ruby) (files : List Source) (S : String → String → Prop) : List Rule → Prop
  | [] => False
  | r :: rs => Holds R files S r ∨ OneOf R files S rs
/-- All rules hold. -/
def Every (R : Ruby) (files : List Source) (S : String → String → Prop) : List Rule → Prop
  | [] => True
  | r :: rs => Holds R files S r ∧ Every R files S rs
end

/-- `S` is what the definitions say of the files: a gestalt is there exactly if the rules of one of its definitions say so. -/
def Agrees (R : Ruby) (defs : List Definition) (files : List Source) (S : String → String → Prop) : Prop :=
  ∀ type name, S type name ↔ ∃ d ∈ defs, d.type = type ∧ d.name = name ∧ OneOf R files S d.rules

/-- The gestalts that were found. -/
def Found (gs : List Gestalt) (type name : String) : Prop := ∃ g ∈ gs, g.type = type ∧ g.name = name

/-! ### The engine's view -/

theorem hasGestalt_iff (gs : List Gestalt) (t n : String) : hasGestalt gs t n = true ↔ Found gs t n := by
  simp [hasGestalt, Found]

theorem foldl_countLanguages (files : List Source) (c : Counts) :
    files.foldl countLanguages c = (parts files).foldl (fun c b => addCount c b.name b.codeCount) c := by
  induction files generalizing c with
  | nil => rfl
  | cons f fs ih => rw [List.foldl_cons, ih]; unfold parts; rw [List.flatMap_cons, List.foldl_append]; rfl

theorem lookup_fold (bs : List Breakdown) (c : Counts) (l : String) :
    (bs.foldl (fun c b => addCount c b.name b.codeCount) c).lookup l =
      if ∃ b ∈ bs, b.name = l then some ((c.lookup l).getD 0 + ((bs.filter fun b => b.name == l).map (·.codeCount)).sum) else c.lookup l := by
  induction bs generalizing c with
  | nil => simp
  | cons b bs ih =>
    rw [List.foldl_cons, ih, lookup_addCount]
    by_cases hb : b.name = l
    · subst hb
      by_cases he : ∃ b' ∈ bs, b'.name = b.name
      · rw [if_pos he, if_pos rfl, if_pos ⟨b, List.mem_cons_self, rfl⟩]
        simp [Nat.add_assoc]
      · rw [if_neg he, if_pos rfl, if_pos ⟨b, List.mem_cons_self, rfl⟩]
        have : (bs.filter fun b' => b'.name == b.name) = [] := by
          rw [List.filter_eq_nil_iff]
          intro x hx hxe
          exact he ⟨x, hx, by simpa using hxe⟩
        simp [this]
    · have h1 : ¬ l = b.name := fun h => hb h.symm
      have h2 : (b.name == l) = false := by simpa using hb
      rw [if_neg h1]
      have h3 : (∃ b' ∈ b :: bs, b'.name = l) ↔ ∃ b' ∈ bs, b'.name = l := by simp [hb]
      simp only [h3, List.filter_cons, h2, Bool.false_eq_true, if_false]

theorem total_fold (bs : List Breakdown) (c : Counts) :
    totalCode (bs.foldl (fun c b => addCount c b.name b.codeCount) c) = totalCode c + ((bs.filter fun b => counted b.name).map (·.codeCount)).sum := by
  induction bs generalizing c with
  | nil => simp
  | cons b bs ih =>
    rw [List.foldl_cons, ih, totalCode_addCount, List.filter_cons]
    have : weight b.name b.codeCount = if counted b.name then b.codeCount else 0 := by
      unfold weight counted
      cases categories.lookup b.name with
      | none => rfl
      | some cat => by_cases h : cat = 1 <;> simp [h]
    rw [this]
    split <;> simp [Nat.add_assoc]

theorem includes_iff (files : List Source) (l : String) (m : Nat) :
    includesLanguage (files.foldl countLanguages []) l m = true ↔ Share files l m := by
  unfold includesLanguage Share
  rw [foldl_countLanguages, lookup_fold, total_fold]
  have ht : totalCode [] = 0 := rfl
  rw [ht, Nat.zero_add]
  show _ ↔ _ ∧ (codeAll files ≠ 0 → _) ∧ (codeAll files = 0 → _)
  by_cases he : ∃ b ∈ parts files, b.name = l
  · rw [if_pos he]
    simp only [List.lookup, Option.getD_none, Nat.zero_add]
    show (if codeAll files = 0 then decide (0 < codeOf files l) else decide (m * codeAll files ≤ 100 * codeOf files l)) = true ↔ _
    by_cases h0 : codeAll files = 0
    · rw [if_pos h0]
      simp only [decide_eq_true_eq]
      exact ⟨fun h => ⟨he, fun h' => absurd h0 h', fun _ => by omega⟩, fun h => by have := h.2.2 h0; omega⟩
    · rw [if_neg h0]
      simp only [decide_eq_true_eq]
      exact ⟨fun h => ⟨he, fun _ => h, fun h' => absurd h' h0⟩, fun h => h.2.1 h0⟩
  · rw [if_neg he]
    simp only [List.lookup]
    exact ⟨(fun h => nomatch h), fun h => absurd h.1 he⟩

/-- The rule has counted nothing yet. -/
def FileRule.fresh (r : FileRule) : Bool := r.count == 0 && r.triggers.isEmpty

mutual
def Rule.fresh : Rule → Bool
  | .or rs => allFresh rs
  | .and rs => allFresh rs
  | .not rs => allFresh rs
  | .file r => r.fresh
  | .gestalt _ _ => true
  | .language _ _ => true
def allFresh : List Rule → Bool
  | [] => true
  | r :: rs => r.fresh && allFresh rs
end

theorem codeIn_eq (f : Source) (l : String) : codeIn f l = (f.breakdown l).toList.map (·.code) := by
  unfold codeIn Source.breakdown
  rw [← List.map_take, ← List.head?_filter, List.take_one]

theorem scanCount_eq (R : Ruby) (re re' : Re) (s : String) : scanCount R re re' s = ((firstGroups (R.scan re s)).filter fun i => R.is re' i).length := by
  unfold scanCount firstGroups
  induction R.scan re s with
  | nil => rfl
  | cons m ms ih =>
    rw [List.countP_cons, ih, List.filterMap_cons]
    cases m with
    | nil => rfl
    | cons x m =>
      cases x with
      | none => rfl
      | some i =>
        simp only [List.headD_cons, Ruby.isOpt, List.head?_cons, Option.join_some, List.filter_cons]
        split <;> simp [*]

/-- The number a rule adds is what the specification says. -/
theorem hits_seen (R : Ruby) (f : Source) (t : Test) : (t.hits R f).getD 0 = seen R f t := by
  cases t with
  | filename names => rfl
  | findFilenames re g => rfl
  | cHeader headers =>
    rw [Test.hits, seen]
    split
    · rw [codeIn_eq, codeIn_eq]
      simp only [List.map_cons, List.map_nil, Option.getD_some]
      cases f.breakdown "c" <;> cases f.breakdown "cpp" <;> simp [over] <;> (repeat' split) <;> simp_all
    · rfl
  | keyword l words =>
    cases l with
    | none => rw [Test.hits, seen]; simp [over, Function.comp_def]
    | some l => rw [Test.hits, seen, codeIn_eq]; cases f.breakdown l <;> simp [over]
  | cKeyword words =>
    rw [Test.hits, seen, codeIn_eq, codeIn_eq]
    cases f.breakdown "c" <;> cases f.breakdown "cpp" <;> simp [over]
  | javaImport re =>
    rw [Test.hits, seen, codeIn_eq]
    cases f.breakdown "java" <;> simp [over, scanCount_eq]
  | csharpUsing re =>
    rw [Test.hits, seen, codeIn_eq]
    cases f.breakdown "csharp" <;> simp [over, scanCount_eq]
  | maven ty g a =>
    rw [Test.hits, seen, codeIn_eq]
    split
    · cases f.breakdown "xml" with
      | none => rfl
      | some lb =>
        simp only [Option.toList_some, List.map_cons, List.map_nil, over, List.sum_cons, List.sum_nil, Nat.add_zero]
        show ((Maven.events R {} (R.xml lb.code)).bind _).getD 0 = _
        cases Maven.events R {} (R.xml lb.code) with
        | none => rfl
        | some ds => simp [List.countP_eq_length_filter, Bool.and_assoc]
    · rfl
  | csproj imp =>
    rw [Test.hits, seen, codeIn_eq]
    split
    · cases f.breakdown "xml" <;> simp [over, List.countP_eq_length_filter]
    · rfl

theorem passes_iff (R : Ruby) (files : List Source) {r : FileRule} (hr : r.fresh = true) :
    (!(r.after R files).triggersOf.isEmpty) = true ↔ Passes R files r.min r.test := by
  simp only [FileRule.fresh, Bool.and_eq_true, beq_iff_eq, List.isEmpty_iff] at hr
  unfold FileRule.triggersOf Passes FileRule.after
  cases ht : r.test with
  | findFilenames re g =>
    simp only [hr.2, List.nil_append, Test.finds]
    rw [Bool.not_eq_true', ← Bool.not_eq_true, List.isEmpty_iff]
    constructor
    · intro h
      refine Classical.byContradiction fun hn => h ?_
      rw [List.map_eq_nil_iff, List.flatMap_eq_nil_iff]
      intro f hf
      cases hg : R.groups re f.filename with
      | none => rfl
      | some m => exact absurd ⟨f, hf, by simp [Ruby.is, hg]⟩ hn
    · rintro ⟨f, hf, hm⟩ h
      rw [List.map_eq_nil_iff, List.flatMap_eq_nil_iff] at h
      have := h f hf
      unfold Ruby.is at hm
      cases hg : R.groups re f.filename with
      | none => rw [hg] at hm; cases hm
      | some m => rw [hg] at this; cases this
  | _ =>
    simp only [hr.1, Nat.zero_add, hitsIn, hits_seen]
    split <;> simp_all

mutual
theorem holds_iff (R : Ruby) (files : List Source) (S : String → String → Bool) : (r : Rule) → r.fresh = true →
    ((r.mapFile (·.after R files)).val (files.foldl countLanguages []) S = true ↔ Holds R files (fun t n => S t n = true) r)
  | .or rs, h => by rw [Rule.mapFile, Rule.val, Holds]; rw [Rule.fresh] at h; exact some_iff R files S rs h
  | .and rs, h => by rw [Rule.mapFile, Rule.val, Holds]; rw [Rule.fresh] at h; exact every_iff R files S rs h
  | .not [], _ => by rw [Rule.mapFile, mapFiles, Rule.val, Holds]; simp
  | .not (r :: rs), h => by
    rw [Rule.fresh, allFresh, Bool.and_eq_true] at h
    rw [Rule.mapFile, mapFiles, Rule.val, Holds, ← holds_iff R files S r h.1]
    simp
  | .gestalt t n, _ => by rw [Rule.mapFile, Rule.val, Holds]
  | .language l m, _ => by rw [Rule.mapFile, Rule.val, Holds]; exact includes_iff files l m
  | .file r, h => by rw [Rule.mapFile, Rule.val, Holds]; rw [Rule.fresh] at h; exact passes_iff R files h
theorem some_iff (R : Ruby) (files : List Source) (S : String → String → Bool) : (rs : List Rule) → allFresh rs = true →
    (anyVal (files.foldl countLanguages []) S (mapFiles (·.after R files) rs) = true ↔ OneOf R files (fun t n => S t n = true) rs)
  | [], _ => by rw [mapFiles, anyVal, OneOf]; simp
  | r :: rs, h => by
    rw [allFresh, Bool.and_eq_true] at h
    rw [mapFiles, anyVal, OneOf, Bool.or_eq_true, holds_iff R files S r h.1, some_iff R files S rs h.2]
theorem every_iff (R : Ruby) (files : List Source) (S : String → String → Bool) : (rs : List Rule) → allFresh rs = true →
    (allVal (files.foldl countLanguages []) S (mapFiles (·.after R files) rs) = true ↔ Every R files (fun t n => S t n = true) rs)
  | [], _ => by rw [mapFiles, allVal, Every]; simp
  | r :: rs, h => by
    rw [allFresh, Bool.and_eq_true] at h
    rw [mapFiles, allVal, Every, Bool.and_eq_true, holds_iff R files S r h.1, every_iff R files S rs h.2]
end

end Ohcount.Gestalt
