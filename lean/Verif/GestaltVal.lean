import Verif.Gestalt
/-
Lemmas about the rules of `Gestalt.lean`: when a rule has triggers, what the rules about files have counted, and which gestalts are looked at.
-/

namespace Ohcount.Gestalt

/-! ### When a rule has triggers -/

mutual
/-- The rule has triggers, `S` being the gestalts found. -/
def Rule.val (c : Counts) (S : String → String → Bool) : Rule → Bool
  | .or rs => anyVal c S rs
  | .and rs => allVal c S rs
  | .not [] => true
  | .not (r :: _) => !r.val c S
  | .gestalt type name => S type name
  | .language l m => includesLanguage c l m
  | .file r => !r.triggersOf.isEmpty
def anyVal (c : Counts) (S : String → String → Bool) : List Rule → Bool
  | [] => false
  | r :: rs => r.val c S || anyVal c S rs
def allVal (c : Counts) (S : String → String → Bool) : List Rule → Bool
  | [] => true
  | r :: rs => r.val c S && allVal c S rs
end

theorem isEmpty_ite (b : Bool) : (if b = true then [({} : Trigger)] else []).isEmpty = !b := by cases b <;> rfl

mutual
theorem val_eq (c : Counts) (gs : List Gestalt) : (r : Rule) → (r.triggers c gs).isEmpty = !r.val c (hasGestalt gs)
  | .or rs => by rw [Rule.triggers, Rule.val]; exact any_eq c gs rs
  | .and rs => by rw [Rule.triggers, Rule.val, isEmpty_ite, all_eq c gs rs]
  | .not [] => by rw [Rule.triggers, Rule.val]; rfl
  | .not (r :: _) => by rw [Rule.triggers, Rule.val, isEmpty_ite, val_eq c gs r]
  | .gestalt t n => by rw [Rule.triggers, Rule.val, isEmpty_ite]
  | .language l m => by rw [Rule.triggers, Rule.val, isEmpty_ite]
  | .file r => by rw [Rule.triggers, Rule.val, Bool.not_not]
theorem any_eq (c : Counts) (gs : List Gestalt) : (rs : List Rule) → (firstTriggers c gs rs).isEmpty = !anyVal c (hasGestalt gs) rs
  | [] => by rw [firstTriggers, anyVal]; rfl
  | r :: rs => by
    have h1 := val_eq c gs r
    have h2 := any_eq c gs rs
    rw [firstTriggers, anyVal]
    cases hv : r.val c (hasGestalt gs) with
    | false => rw [hv] at h1; simp [h1, h2]
    | true => rw [hv] at h1; simp [h1]
theorem all_eq (c : Counts) (gs : List Gestalt) : (rs : List Rule) → allTrigger c gs rs = allVal c (hasGestalt gs) rs
  | [] => by rw [allTrigger, allVal]
  | r :: rs => by
    have h1 := val_eq c gs r
    have h2 := all_eq c gs rs
    rw [allTrigger, allVal]
    cases hv : r.val c (hasGestalt gs) with
    | false => rw [hv] at h1; simp [h1]
    | true => rw [hv] at h1; simp [h1, h2]
end

/-! ### Rules whose triggers have no names -/

/-- The test is not `findFilenames`. -/
def Test.plain : Test → Bool
  | .findFilenames _ _ => false
  | _ => true

mutual
/-- The triggers of the rule carry no name of a file. -/
def Rule.nameless : Rule → Bool
  | .or rs => allNameless rs
  | .file r => r.test.plain
  | _ => true
def allNameless : List Rule → Bool
  | [] => true
  | r :: rs => r.nameless && allNameless rs
end

theorem ite_nameless (b : Bool) : (if b = true then [({} : Trigger)] else []) = if !(if b = true then [({} : Trigger)] else []).isEmpty then [{}] else [] := by
  cases b <;> rfl

theorem FileRule.nameless {r : FileRule} (h : r.test.plain = true) : r.triggersOf = if !r.triggersOf.isEmpty then [{}] else [] := by
  unfold FileRule.triggersOf
  cases ht : r.test with
  | findFilenames re g => rw [ht] at h; cases h
  | _ => dsimp only; split <;> rfl

mutual
theorem nameless_eq (c : Counts) (gs : List Gestalt) : (r : Rule) → r.nameless = true →
    r.triggers c gs = if !(r.triggers c gs).isEmpty then [{}] else []
  | .or rs, h => by rw [Rule.triggers]; rw [Rule.nameless] at h; exact nameless_first c gs rs h
  | .and rs, _ => by rw [Rule.triggers]; exact ite_nameless _
  | .not [], _ => by rw [Rule.triggers]; rfl
  | .not (r :: _), _ => by rw [Rule.triggers]; exact ite_nameless _
  | .gestalt t n, _ => by rw [Rule.triggers]; exact ite_nameless _
  | .language l m, _ => by rw [Rule.triggers]; exact ite_nameless _
  | .file r, h => by rw [Rule.triggers]; rw [Rule.nameless] at h; exact FileRule.nameless h
theorem nameless_first (c : Counts) (gs : List Gestalt) : (rs : List Rule) → allNameless rs = true →
    firstTriggers c gs rs = if !(firstTriggers c gs rs).isEmpty then [{}] else []
  | [], _ => by rw [firstTriggers]; rfl
  | r :: rs, h => by
    rw [allNameless, Bool.and_eq_true] at h
    have h1 := nameless_eq c gs r h.1
    have h2 := nameless_first c gs rs h.2
    rw [firstTriggers]
    split
    · exact h2
    · exact h1
end

/-! ### What rules about files count -/

mutual
/-- The rule with `g` applied to the rules about files. -/
def Rule.mapFile (g : FileRule → FileRule) : Rule → Rule
  | .or rs => .or (mapFiles g rs)
  | .and rs => .and (mapFiles g rs)
  | .not rs => .not (mapFiles g rs)
  | .file r => .file (g r)
  | .gestalt t n => .gestalt t n
  | .language l m => .language l m
def mapFiles (g : FileRule → FileRule) : List Rule → List Rule
  | [] => []
  | r :: rs => r.mapFile g :: mapFiles g rs
/-- The tests in the rule. -/
def Rule.tests : Rule → List Test
  | .or rs => allTests rs
  | .and rs => allTests rs
  | .not rs => allTests rs
  | .file r => [r.test]
  | .gestalt _ _ => []
  | .language _ _ => []
def allTests : List Rule → List Test
  | [] => []
  | r :: rs => r.tests ++ allTests rs
end

/-- A rule about files after one file. -/
def FileRule.next (R : Ruby) (f : Source) (r : FileRule) : FileRule :=
  { r with count := r.count + (r.test.hits R f).getD 0, triggers := r.triggers ++ r.test.finds R f }

theorem FileRule.process_eq (R : Ruby) (f : Source) (r : FileRule) :
    r.process R f = if (r.test.hits R f).isSome then some (r.next R f) else none := by
  unfold FileRule.process FileRule.next
  cases r.test.hits R f <;> rfl

/-- No test of the list raises an exception for the file. -/
def okTests (R : Ruby) (f : Source) (ts : List Test) : Bool := ts.all fun t => (t.hits R f).isSome

mutual
theorem process_eq (R : Ruby) (f : Source) : (r : Rule) →
    r.process R f = if okTests R f r.tests then some (r.mapFile (·.next R f)) else none
  | .or rs => by rw [Rule.process, processAll_eq R f rs, Rule.tests, Rule.mapFile]; cases okTests R f (allTests rs) <;> rfl
  | .and rs => by rw [Rule.process, processAll_eq R f rs, Rule.tests, Rule.mapFile]; cases okTests R f (allTests rs) <;> rfl
  | .not rs => by rw [Rule.process, processAll_eq R f rs, Rule.tests, Rule.mapFile]; cases okTests R f (allTests rs) <;> rfl
  | .file r => by
    rw [Rule.process, FileRule.process_eq, Rule.tests, Rule.mapFile]
    simp only [okTests, List.all_cons, List.all_nil, Bool.and_true]
    cases (r.test.hits R f).isSome <;> rfl
  | .gestalt t n => by rw [Rule.process, Rule.tests, Rule.mapFile]; rfl; all_goals (intros; contradiction)
  | .language l m => by rw [Rule.process, Rule.tests, Rule.mapFile]; rfl; all_goals (intros; contradiction)
theorem processAll_eq (R : Ruby) (f : Source) : (rs : List Rule) →
    processAll R f rs = if okTests R f (allTests rs) then some (mapFiles (·.next R f) rs) else none
  | [] => by rw [processAll, allTests, mapFiles]; rfl
  | r :: rs => by
    rw [processAll, process_eq R f r, processAll_eq R f rs, allTests, mapFiles]
    unfold okTests
    rw [List.all_append]
    cases (r.tests.all fun t => (t.hits R f).isSome) <;> cases ((allTests rs).all fun t => (t.hits R f).isSome) <;> rfl
end

mutual
theorem mapFile_mapFile (g h : FileRule → FileRule) : (r : Rule) → (r.mapFile h).mapFile g = r.mapFile fun x => g (h x)
  | .or rs => by simp only [Rule.mapFile, mapFiles_mapFiles g h rs]
  | .and rs => by simp only [Rule.mapFile, mapFiles_mapFiles g h rs]
  | .not rs => by simp only [Rule.mapFile, mapFiles_mapFiles g h rs]
  | .file r => by simp only [Rule.mapFile]
  | .gestalt t n => by simp only [Rule.mapFile]
  | .language l m => by simp only [Rule.mapFile]
theorem mapFiles_mapFiles (g h : FileRule → FileRule) : (rs : List Rule) → mapFiles g (mapFiles h rs) = mapFiles (fun x => g (h x)) rs
  | [] => by simp only [mapFiles]
  | r :: rs => by simp only [mapFiles, mapFile_mapFile g h r, mapFiles_mapFiles g h rs]
end

mutual
theorem mapFile_id : (r : Rule) → r.mapFile (fun x => x) = r
  | .or rs => by simp only [Rule.mapFile, mapFiles_id rs]
  | .and rs => by simp only [Rule.mapFile, mapFiles_id rs]
  | .not rs => by simp only [Rule.mapFile, mapFiles_id rs]
  | .file r => by simp only [Rule.mapFile]
  | .gestalt t n => by simp only [Rule.mapFile]
  | .language l m => by simp only [Rule.mapFile]
theorem mapFiles_id : (rs : List Rule) → mapFiles (fun x => x) rs = rs
  | [] => by simp only [mapFiles]
  | r :: rs => by simp only [mapFiles, mapFile_id r, mapFiles_id rs]
end

/-- `g` keeps what the rule tests. -/
def Keeps (g : FileRule → FileRule) : Prop := ∀ r, (g r).test = r.test

mutual
theorem tests_mapFile {g : FileRule → FileRule} (hg : Keeps g) : (r : Rule) → (r.mapFile g).tests = r.tests
  | .or rs => by simp only [Rule.mapFile, Rule.tests, tests_mapFiles hg rs]
  | .and rs => by simp only [Rule.mapFile, Rule.tests, tests_mapFiles hg rs]
  | .not rs => by simp only [Rule.mapFile, Rule.tests, tests_mapFiles hg rs]
  | .file r => by simp only [Rule.mapFile, Rule.tests, hg r]
  | .gestalt t n => by simp only [Rule.mapFile]
  | .language l m => by simp only [Rule.mapFile]
theorem tests_mapFiles {g : FileRule → FileRule} (hg : Keeps g) : (rs : List Rule) → allTests (mapFiles g rs) = allTests rs
  | [] => by simp only [mapFiles]
  | r :: rs => by simp only [mapFiles, allTests, tests_mapFile hg r, tests_mapFiles hg rs]
end

mutual
theorem nameless_mapFile {g : FileRule → FileRule} (hg : Keeps g) : (r : Rule) → (r.mapFile g).nameless = r.nameless
  | .or rs => by simp only [Rule.mapFile, Rule.nameless, nameless_mapFiles hg rs]
  | .and rs => by simp only [Rule.mapFile, Rule.nameless]
  | .not rs => by simp only [Rule.mapFile, Rule.nameless]
  | .file r => by simp only [Rule.mapFile, Rule.nameless, hg r]
  | .gestalt t n => by simp only [Rule.mapFile]
  | .language l m => by simp only [Rule.mapFile]
theorem nameless_mapFiles {g : FileRule → FileRule} (hg : Keeps g) : (rs : List Rule) → allNameless (mapFiles g rs) = allNameless rs
  | [] => by simp only [mapFiles]
  | r :: rs => by simp only [mapFiles, allNameless, nameless_mapFile hg r, nameless_mapFiles hg rs]
end

/-- A rule about files after some files. -/
def FileRule.after (R : Ruby) (files : List Source) (r : FileRule) : FileRule :=
  { r with count := r.count + (files.map fun f => (r.test.hits R f).getD 0).sum, triggers := r.triggers ++ files.flatMap fun f => r.test.finds R f }

theorem after_nil (R : Ruby) : (fun r : FileRule => r.after R []) = fun r => r := by
  funext r; simp [FileRule.after]

theorem after_cons (R : Ruby) (f : Source) (files : List Source) :
    (fun r : FileRule => r.after R (f :: files)) = fun r => (r.next R f).after R files := by
  funext r; simp [FileRule.after, FileRule.next, Nat.add_assoc]

theorem keeps_after (R : Ruby) (files : List Source) : Keeps (·.after R files) := fun _ => rfl
theorem keeps_next (R : Ruby) (f : Source) : Keeps (·.next R f) := fun _ => rfl

/-- A definition after some files. -/
def Definition.after (R : Ruby) (files : List Source) (d : Definition) : Definition := { d with rules := mapFiles (·.after R files) d.rules }

/-- No test of the definitions raises an exception for the file. -/
def okDefs (R : Ruby) (f : Source) (ds : List Definition) : Bool := ds.all fun d => okTests R f (allTests d.rules)

theorem processDefs_eq (R : Ruby) (f : Source) (ds : List Definition) :
    processDefs R f ds = if okDefs R f ds then some (ds.map fun d => { d with rules := mapFiles (·.next R f) d.rules }) else none := by
  induction ds with
  | nil => rfl
  | cons d ds ih =>
    rw [processDefs, processAll_eq, ih]
    unfold okDefs
    rw [List.all_cons]
    cases okTests R f (allTests d.rules) <;> cases (ds.all fun d => okTests R f (allTests d.rules)) <;> rfl

theorem okDefs_map (R : Ruby) (f : Source) {g : FileRule → FileRule} (hg : Keeps g) (ds : List Definition) :
    okDefs R f (ds.map fun d => { d with rules := mapFiles g d.rules }) = okDefs R f ds := by
  unfold okDefs
  rw [List.all_map]
  congr 1
  funext d
  simp only [Function.comp, tests_mapFiles hg]

theorem processFiles_eq (R : Ruby) (files : List Source) (e : Engine) :
    e.processFiles R files = if files.all (fun f => okDefs R f e.defs) then
      some { e with defs := e.defs.map (·.after R files), counts := files.foldl countLanguages e.counts } else none := by
  induction files generalizing e with
  | nil =>
    have : e.defs.map (·.after R []) = e.defs := by
      have h : (fun d : Definition => d.after R []) = fun d => d := by
        funext d; simp only [Definition.after, after_nil, mapFiles_id]
      rw [h, List.map_id']
    simp [Engine.processFiles, this]
  | cons f fs ih =>
    rw [Engine.processFiles, Engine.processFile, processDefs_eq, List.all_cons]
    cases hf : okDefs R f e.defs with
    | false => rfl
    | true =>
      rw [if_pos rfl]
      show Engine.processFiles R fs _ = _
      rw [ih]
      simp only [okDefs_map R _ (keeps_next R f), Bool.true_and, List.foldl_cons, List.map_map]
      have h : ((fun d : Definition => d.after R fs) ∘ fun d : Definition => ({ d with rules := mapFiles (·.next R f) d.rules } : Definition)) = fun d : Definition => d.after R (f :: fs) := by
        funext d
        simp only [Function.comp, Definition.after, mapFiles_mapFiles, after_cons]
      rw [h]

/-! ### Languages -/

theorem lookup_addCount (c : Counts) (name : String) (n : Nat) (l : String) :
    (addCount c name n).lookup l = if l = name then some ((c.lookup l).getD 0 + n) else c.lookup l := by
  induction c with
  | nil =>
    rw [addCount]
    by_cases h : l = name
    · subst h; simp
    · have : (l == name) = false := by simpa using h
      simp [List.lookup, this, h]
  | cons x c ih =>
    obtain ⟨k, v⟩ := x
    rw [addCount]
    by_cases hk : k = name
    · subst hk
      rw [if_pos rfl]
      by_cases h : l = k
      · subst h; simp
      · have : (l == k) = false := by simpa using h
        simp [List.lookup, this, h]
    · rw [if_neg hk]
      by_cases h : l = k
      · subst h; simp [hk]
      · have : (l == k) = false := by simpa using h
        simp only [List.lookup, this, ih]

/-- What a language counts for in the total. -/
def weight (name : String) (n : Nat) : Nat :=
  match categories.lookup name with
  | none => 0
  | some cat => if cat = 1 then 0 else n

theorem weight_add (name : String) (m n : Nat) : weight name (m + n) = weight name m + weight name n := by
  unfold weight
  split
  · rfl
  · split <;> rfl

theorem totalCode_eq (c : Counts) : totalCode c = (c.map fun x => weight x.1 x.2).sum := rfl

theorem totalCode_addCount (c : Counts) (name : String) (n : Nat) : totalCode (addCount c name n) = totalCode c + weight name n := by
  simp only [totalCode_eq]
  induction c with
  | nil => simp [addCount]
  | cons x c ih =>
    obtain ⟨k, v⟩ := x
    rw [addCount]
    split
    · next h => subst h; simp only [List.map_cons, List.sum_cons, weight_add]; omega
    · simp only [List.map_cons, List.sum_cons, ih]; omega

end Ohcount.Gestalt
