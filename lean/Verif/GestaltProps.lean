import Verif.GestaltAgree
import Verif.GestaltTable
/-
C83 to C86: the search for platforms ends, does not depend on the order of the files, finds what the definitions say, and reports it how often.
-/

namespace Ohcount.Gestalt

/-! ### C83 -/

theorem calc_quiet {e e' : Engine} (h : e.calc = some e') : e'.counts = e.counts ∧ ∀ d ∈ e'.defs, d.fires e'.counts e'.gestalts = false := by
  unfold Engine.calc at h
  cases hl : calcLoop e.counts 0 e.gestalts e.defs with
  | none => rw [hl] at h; cases h
  | some x =>
    obtain ⟨gs, ds⟩ := x
    rw [hl] at h
    obtain rfl : { e with gestalts := gs, defs := ds } = e' := Option.some.inj h
    refine ⟨rfl, ?_⟩
    show ∀ d ∈ ds, d.fires e.counts gs = false
    rw [calcLoop_eq] at hl
    split at hl
    · rename_i h0
      have hp := pass_length e.counts e.gestalts e.defs
      have hq := hp.2.2.2.1 (by omega)
      rw [pass_none hq] at hl
      cases hl
      exact hq
    · obtain ⟨gs', ds', h1, h2, -⟩ := calcLoop_ends e.counts _ (pass e.counts e.gestalts e.defs).1 (pass e.counts e.gestalts e.defs).2 (Nat.le_refl _)
      rw [h1] at hl
      cases hl
      exact h2

/-- **C83**: the analysis of a list of files ends with a list of gestalts for any definitions, unless one of their tests raises an exception for one
of the files. -/
theorem C83_ends (R : Ruby) (defs : List Definition) (files : List Source) :
    (∃ gs, analyze R defs files = some gs) ↔ ∀ f ∈ files, ∀ d ∈ defs, ∀ t ∈ allTests d.rules, ∃ n, t.hits R f = some n := by
  have hok : (files.all fun f => okDefs R f defs) = true ↔ ∀ f ∈ files, ∀ d ∈ defs, ∀ t ∈ allTests d.rules, ∃ n, t.hits R f = some n := by
    simp only [List.all_eq_true, okDefs, okTests, Option.isSome_iff_exists]
  rw [← hok, analyze_eq]
  cases files.all fun f => okDefs R f defs with
  | false => simp
  | true =>
    obtain ⟨gs, ds, h⟩ := calcLoop_total (files.foldl countLanguages []) 0 [] (defs.map (·.after R files))
    rw [if_pos rfl, h]
    exact ⟨fun _ => rfl, fun _ => ⟨gs, rfl⟩⟩

/-- **C83**: calculating the gestalts again changes nothing. -/
theorem C83_again {e e' : Engine} (h : e.calc = some e') : e'.calc = some e' := by
  obtain ⟨-, hq⟩ := calc_quiet h
  unfold Engine.calc
  have h1 : calcLoop e'.counts 0 e'.gestalts e'.defs = some (e'.gestalts, e'.defs) := by
    rw [calcLoop_eq, pass_none hq]
    dsimp only
    split
    · rfl
    · rw [calcLoop_eq, pass_none hq]; simp
  rw [h1]
  rfl

/-! ### Running the model -/

/-- `calcLoop` with a bound, for the examples. -/
def calcFuel (c : Counts) : Nat → Nat → List Gestalt → List Definition → Option (List Gestalt)
  | 0, _, _, _ => none
  | n + 1, count, gs, ds =>
    if count = (pass c gs ds).1.length then some (pass c gs ds).1 else calcFuel c n (pass c gs ds).1.length (pass c gs ds).1 (pass c gs ds).2

def run (R : Ruby) (defs : List Definition) (files : List Source) : Option (List Gestalt) := do
  let e ← Engine.processFiles R files { defs := defs }
  calcFuel e.counts 9 0 [] e.defs

theorem calcFuel_ok {c : Counts} {n count : Nat} {gs : List Gestalt} {ds : List Definition} {r : List Gestalt} (h : calcFuel c n count gs ds = some r) :
    (calcLoop c count gs ds).map (·.1) = some r := by
  induction n generalizing count gs ds with
  | zero => cases h
  | succ n ih =>
    rw [calcFuel] at h
    rw [calcLoop_eq]
    split at h
    · rename_i he; rw [if_pos he]; exact h
    · rename_i he; rw [if_neg he]; exact ih h

theorem run_ok {R : Ruby} {defs : List Definition} {files : List Source} {r : List Gestalt} (h : run R defs files = some r) :
    analyze R defs files = some r := by
  unfold run at h
  unfold analyze
  cases he : Engine.processFiles R files { defs := defs } with
  | none => rw [he] at h; cases h
  | some e =>
    rw [he] at h
    have h' := calcFuel_ok (show calcFuel e.counts 9 0 [] e.defs = some r from h)
    show (Engine.calc e).bind _ = _
    unfold Engine.calc
    have hg : e.gestalts = [] := by
      rw [processFiles_eq] at he
      split at he
      · cases he; rfl
      · cases he
    rw [hg]
    cases hc : calcLoop e.counts 0 [] e.defs with
    | none => rw [hc] at h'; cases h'
    | some x => rw [hc] at h'; exact h'

/-- A regular expression engine that knows two Java imports and an annotation, and no XML. -/
def ruby0 : Ruby where
  groups re s := if (re.src == "^org\\.openesb\\b" && s == "org.openesb.bpel") || (re.src == "^javax\\.persistence\\b" && s == "javax.persistence") then some [some s] else none
  scan re s :=
    if re = importRe then (if s == "import org.openesb.bpel;" then [[some "org.openesb.bpel"]] else [])
    else if s == "@Entity class A {}" && re.src == "(@EJB|@Stateless|@Statefull|@Entity|@Remote|@Local|@BusinessMethod)" then [[some "@Entity"]] else []
  xml _ := []

def java0 (code : String) : Source := ⟨"src/A.java", "A.java", some "java", [⟨"java", code, 40⟩]⟩
def make0 : Source := ⟨"Makefile", "Makefile", some "make", [⟨"make", "", 5⟩]⟩

theorem run0 : run ruby0 shipped [java0 "@Entity class A {}", make0] =
    some [⟨"platform", "java", 1⟩, ⟨"platform", "ejb3+", 1⟩, ⟨"platform", "ejb3.0", 1⟩] := by decide +kernel

theorem run1 : run ruby0 shipped [java0 "import org.openesb.bpel;"] =
    some [⟨"platform", "java", 1⟩, ⟨"platform", "openesb", 1⟩, ⟨"platform", "openesb", 1⟩] := by decide +kernel

example : ∃ gs, analyze ruby0 shipped [java0 "@Entity class A {}", make0] = some gs ∧ gs.length = 3 := ⟨_, run_ok run0, rfl⟩

/-! ### C84 -/

theorem shipped_plain : Plain shipped := by
  have : (shipped.all fun d => allFresh d.rules && allNameless d.rules) = true := by decide +kernel
  intro d hd
  have := List.all_eq_true.1 this d hd
  rwa [Bool.and_eq_true] at this

/-- **C84**: the gestalts of a project do not depend on the order in which its files are given.  If an exception is raised for one order, it is
raised for all. -/
theorem C84_order (R : Ruby) {files files' : List Source} (h : files.Perm files') : analyze R shipped files = analyze R shipped files' :=
  analyze_perm R shipped_plain h

example : analyze ruby0 shipped [make0, java0 "@Entity class A {}"] =
    some [⟨"platform", "java", 1⟩, ⟨"platform", "ejb3+", 1⟩, ⟨"platform", "ejb3.0", 1⟩] :=
  (C84_order ruby0 (.swap _ _ _)).trans (run_ok run0)

/-- **C84**: the same for definitions of one's own, as long as no gestalt is named after a file. -/
theorem C84_own (R : Ruby) {defs : List Definition} (hp : Plain defs) {files files' : List Source} (h : files.Perm files') :
    analyze R defs files = analyze R defs files' := analyze_perm R hp h

/-! ### C85 -/

theorem shipped_ordered : ordered [] [] shipped = true := by decide +kernel

/-- The definitions that look only at gestalts of the list. -/
def layer (defs : List Definition) (L : List Key) : List Key :=
  L ++ ((defs.filter fun d => (allRefs d.rules).all fun k => L.contains k).map (·.key)).filter fun k => !L.contains k

theorem shipped_ranked : ranked (layer shipped (layer shipped (layer shipped (layer shipped [])))) shipped = true := by decide +kernel

/-- **C85**: a gestalt is found exactly if the rules of one of its definitions say so of the files and of the gestalts found; no other set of
gestalts has this property. -/
theorem C85_exact {R : Ruby} {files : List Source} {gs : List Gestalt} (h : analyze R shipped files = some gs) :
    Agrees R shipped files (Found gs) ∧ ∀ S, Agrees R shipped files S → ∀ type name, S type name ↔ Found gs type name :=
  have ha := analyze_agrees shipped_plain shipped_ordered h
  ⟨ha, fun _ hS => agrees_unique shipped_ranked hS ha⟩

example : Agrees ruby0 shipped [java0 "@Entity class A {}", make0] (Found [⟨"platform", "java", 1⟩, ⟨"platform", "ejb3+", 1⟩, ⟨"platform", "ejb3.0", 1⟩]) :=
  (C85_exact (run_ok run0)).1

/-- **C85** for any list of definitions in which no definition looks at itself. -/
def C85_full : Prop :=
  ∀ (R : Ruby) (defs : List Definition) (files : List Source) (gs : List Gestalt), Plain defs → (∃ L, ranked L defs = true) →
    analyze R defs files = some gs → Agrees R defs files (Found gs)

/-- **C85**: it holds if, in the order of the definitions, what is below a `not` is settled before (`ordered`). -/
theorem C85_own_partial {R : Ruby} {defs : List Definition} {files : List Source} {gs : List Gestalt} (hp : Plain defs)
    (ho : ordered [] [] defs = true) (h : analyze R defs files = some gs) : Agrees R defs files (Found gs) := analyze_agrees hp ho h

example : Plain [d05, d67] ∧ ordered [] [] [d05, d67] = true :=
  ⟨fun d hd => shipped_plain d (by
    rcases List.mem_cons.1 hd with rfl | hd
    · simp [shipped]
    · rw [List.mem_singleton.1 hd]; simp [shipped]), by decide +kernel⟩

/-- Two definitions in the wrong order: Java without `make`, and `make`. -/
def unordered : List Definition :=
  [⟨"platform", "plain_java", [.and [.language "java" 15, .not [.gestalt "tool" "make"]]]⟩, ⟨"tool", "make", [.language "make" 0]⟩]

/-- **C85** is false for definitions of one's own: a `not` above a gestalt that is defined later is taken as true. -/
theorem C85_negation : ¬ C85_full := by
  intro h
  have hr : run ruby0 unordered [java0 "", make0] = some [⟨"platform", "plain_java", 1⟩, ⟨"tool", "make", 1⟩] := by decide +kernel
  have hp : Plain unordered := by
    have : (unordered.all fun d => allFresh d.rules && allNameless d.rules) = true := by decide +kernel
    intro d hd
    have := List.all_eq_true.1 this d hd
    rwa [Bool.and_eq_true] at this
  have := h ruby0 unordered _ _ hp ⟨[("tool", "make"), ("platform", "plain_java")], by decide +kernel⟩ (run_ok hr)
  obtain ⟨d, hd, h1, h2, h3⟩ := (this "platform" "plain_java").1 ⟨_, List.mem_cons_self, rfl, rfl⟩
  rcases List.mem_cons.1 hd with rfl | hd
  · simp only [OneOf, Holds, Every] at h3
    rcases h3 with h3 | h3
    · exact h3.2.1 ⟨⟨"tool", "make", 1⟩, by simp, rfl, rfl⟩
    · exact h3
  · rw [List.mem_singleton.1 hd] at h2
    exact absurd h2 (by decide +kernel)

/-! ### C86 -/

/-- **C86**: no platform is reported twice. -/
def C86_full : Prop := ∀ (R : Ruby) (files : List Source) (gs : List Gestalt), analyze R shipped files = some gs → gs.Nodup

/-- **C86** is false: OpenESB is defined twice. -/
theorem C86_negation : ¬ C86_full := fun h => by
  have := h _ _ _ (run_ok run1)
  revert this
  decide +kernel

theorem count_fired {fired left : List Definition} (h : (fired ++ left).Perm shipped) (g : Gestalt) :
    (fired.map (·.gestalt)).count g + (left.map (·.gestalt)).count g = (shipped.map (·.gestalt)).count g := by
  rw [← List.count_append, ← List.map_append]
  exact (h.map _).count_eq g

theorem shipped_counts : (shipped.all fun d => (shipped.map (·.gestalt)).count d.gestalt == if d.name == "openesb" then 2 else 1) = true := by decide +kernel

/-- **C86**: every platform but OpenESB is reported at most once; OpenESB is reported twice, or not at all.  All counts are 1. -/
theorem C86_once_partial {R : Ruby} {files : List Source} {gs : List Gestalt} (h : analyze R shipped files = some gs) :
    ∀ g ∈ gs, g.count = 1 ∧ gs.count g = if g.name = "openesb" then 2 else 1 := by
  obtain ⟨fired, left, h1, h2, h3, h4⟩ := analyze_found shipped_plain shipped_ordered h
  intro g hg
  rw [h2] at hg
  obtain ⟨d, hd, rfl⟩ := List.mem_map.1 hg
  have hds : d ∈ shipped := h1.subset (List.mem_append_left _ hd)
  refine ⟨rfl, ?_⟩
  have hc := List.all_eq_true.1 shipped_counts d hds
  rw [beq_iff_eq] at hc
  have hs := count_fired h1 d.gestalt
  rw [hc] at hs
  have hpos : 0 < (fired.map (·.gestalt)).count d.gestalt := List.count_pos_iff.2 hg
  rw [h2]
  show _ = if d.name = "openesb" then 2 else 1
  by_cases hn : d.name = "openesb"
  · rw [if_pos hn]
    rw [if_pos (by simpa using hn)] at hs
    -- the other definition has the same rules, so it is not left
    have hleft : (left.map (·.gestalt)).count d.gestalt = 0 := by
      rw [List.count_eq_zero]
      intro hm
      obtain ⟨e, he, hee⟩ := List.mem_map.1 hm
      have hes : e ∈ shipped := h1.subset (List.mem_append_right _ he)
      have hen : e.name = "openesb" := by
        have : e.gestalt.name = d.gestalt.name := by rw [hee]
        exact this.trans hn
      have hrules : ∀ x ∈ shipped, x.name = "openesb" → x.rules = d80.rules := by
        have hf : shipped.filter (fun x => x.name == "openesb") = [d80, d84] := by rfl
        intro x hx hxn
        have : x ∈ shipped.filter (fun x => x.name == "openesb") := List.mem_filter.2 ⟨hx, by simpa using hxn⟩
        rw [hf] at this
        rcases List.mem_cons.1 this with rfl | this
        · rfl
        · rw [List.mem_singleton.1 this]; rfl
      apply h4 e he
      rw [hrules e hes hen, ← hrules d hds hn]
      exact h3 d hd
    omega
  · rw [if_neg hn]
    rw [if_neg (by simpa using hn)] at hs
    omega

example : ∃ gs, analyze ruby0 shipped [java0 "import org.openesb.bpel;"] = some gs ∧ gs.count ⟨"platform", "openesb", 1⟩ = 2 ∧
    gs.count ⟨"platform", "java", 1⟩ = 1 := ⟨_, run_ok run1, by decide +kernel, by decide +kernel⟩

end Ohcount.Gestalt
