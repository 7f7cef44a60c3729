import Verif.GestaltMaven
/-
C89: the languages that the definitions of gestalts name.
-/

namespace Ohcount.Gestalt

mutual
/-- The languages that a rule names: those of `language` and `xxx_keywords`. -/
def Rule.languages : Rule → List String
  | .or rs => allLanguages rs
  | .and rs => allLanguages rs
  | .not rs => allLanguages rs
  | .gestalt _ _ => []
  | .language l _ => [l]
  | .file r =>
    match r.test with
    | .keyword (some l) _ => [l]
    | _ => []
def allLanguages : List Rule → List String
  | [] => []
  | r :: rs => r.languages ++ allLanguages rs
end

/-- **C89**: the languages that the definitions name are languages that the library reports. -/
def C89_full : Prop := ∀ d ∈ shipped, ∀ l ∈ allLanguages d.rules, l ∈ langNames

/-- **C89** is false. -/
theorem C89_negation : ¬ C89_full := fun h => absurd (h d54 (by simp [shipped]) "fortran" (by decide +kernel)) (by decide +kernel)

/-- The library reports every language of the project. -/
def Reported (files : List Source) : Prop := ∀ f ∈ files, ∀ b ∈ f.breakdowns, b.name ∈ langNames

theorem not_part {files : List Source} (h : Reported files) {l : String} (hl : l ∉ langNames) : ¬ ∃ b ∈ parts files, b.name = l := by
  rintro ⟨b, hb, rfl⟩
  obtain ⟨f, hf, hb⟩ := List.mem_flatMap.1 hb
  exact hl (h f hf b hb)

theorem not_share {files : List Source} (h : Reported files) {l : String} (hl : l ∉ langNames) (m : Nat) : ¬ Share files l m :=
  fun hs => not_part h hl hs.1

theorem no_keyword (R : Ruby) {files : List Source} (h : Reported files) {l : String} (hl : l ∉ langNames) (w : List String) : hitsIn R files (.keyword (some l) w) = 0 := by
  unfold hitsIn
  have : ∀ f ∈ files, seen R f (.keyword (some l) w) = 0 := by
    intro f hf
    rw [seen, codeIn_eq]
    have hb : f.breakdown l = none := by
      unfold Source.breakdown
      rw [List.find?_eq_none]
      intro b hb he
      rw [beq_iff_eq] at he
      exact hl (he ▸ h f hf b hb)
    rw [hb]
    rfl
  rw [List.map_congr_left this]
  induction files with
  | nil => rfl
  | cons f fs ih => rw [List.map_cons, List.sum_cons, ih (fun g hg => h g (List.mem_cons_of_mem _ hg)) (fun g hg => this g (List.mem_cons_of_mem _ hg))]

/-- **C89**: it holds of all definitions but two, which name six languages that the library does not report; a rule that names one of them never
holds. -/
theorem C89_known_partial :
    (∀ d ∈ shipped, d.name ≠ "native_code" → d.name ≠ "windows_ce_incomplete" → ∀ l ∈ allLanguages d.rules, l ∈ langNames) ∧
    (∀ l ∈ ["cncpp", "assembly", "d", "fortran", "cobol", "vb"], ∀ (R : Ruby) (files : List Source), Reported files →
      (∀ m, ¬ Share files l m) ∧ ∀ w, hitsIn R files (.keyword (some l) w) = 0) := by
  constructor
  · have h : (shipped.all fun d => d.name == "native_code" || d.name == "windows_ce_incomplete" || (allLanguages d.rules).all fun l => langNames.contains l) = true := by
      decide +kernel
    intro d hd h1 h2 l hl
    have := List.all_eq_true.1 h d hd
    rw [Bool.or_eq_true, Bool.or_eq_true, beq_iff_eq, beq_iff_eq] at this
    rcases this with (this | this) | this
    · exact absurd this h1
    · exact absurd this h2
    · simpa using List.all_eq_true.1 this l hl
  · intro l hl R files hr
    have hn : l ∉ langNames := by
      have : (["cncpp", "assembly", "d", "fortran", "cobol", "vb"].all fun l => !langNames.contains l) = true := by decide +kernel
      have := List.all_eq_true.1 this l hl
      simpa using this
    exact ⟨not_share hr hn, no_keyword R hr hn⟩

/-- **C89**: so a project is taken for native code exactly if it has enough C, C++ or Haskell; assembler, D, Fortran and COBOL do not count. -/
theorem C89_native {R : Ruby} {files : List Source} {gs : List Gestalt} (hr : Reported files) (h : analyze R shipped files = some gs) :
    Found gs "platform" "native_code" ↔ Share files "c" 5 ∨ Share files "cpp" 5 ∨ Share files "haskell" 5 := by
  rw [(C85_exact h).1]
  have hf : shipped.filter (fun x => x.name == "native_code") = [d54] := by rfl
  have hno := C89_known_partial.2
  have hrules : OneOf R files (Found gs) d54.rules ↔ Share files "c" 5 ∨ Share files "cpp" 5 ∨ Share files "haskell" 5 := by
    simp only [d54, OneOf, Holds]
    have h1 := (hno "cncpp" (by simp) R files hr).1
    have h2 := (hno "assembly" (by simp) R files hr).1
    have h3 := (hno "d" (by simp) R files hr).1
    have h4 := (hno "fortran" (by simp) R files hr).1
    have h5 := (hno "cobol" (by simp) R files hr).1
    simp only [h1, h2, h3, h4, h5, false_or, or_false]
  rw [← hrules]
  constructor
  · rintro ⟨d, hd, -, hn, ho⟩
    have : d ∈ shipped.filter (fun x => x.name == "native_code") := List.mem_filter.2 ⟨hd, by simpa using hn⟩
    rw [hf, List.mem_singleton] at this
    rwa [this] at ho
  · intro ho
    exact ⟨d54, by simp [shipped], rfl, rfl, ho⟩

/-- A project with nothing but Fortran. -/
def fortran0 : Source := ⟨"a.f90", "a.f90", some "fortranfree", [⟨"fortranfree", "", 100⟩]⟩

example : Reported [fortran0] ∧ run ruby0 shipped [fortran0] = some [] ∧
    run ruby0 shipped [⟨"a.hs", "a.hs", some "haskell", [⟨"haskell", "", 9⟩]⟩] = some [⟨"platform", "native_code", 1⟩] := by
  refine ⟨?_, by decide +kernel, by decide +kernel⟩
  intro f hf b hb
  rw [List.mem_singleton.1 hf] at hb
  rw [List.mem_singleton.1 hb]
  decide +kernel

end Ohcount.Gestalt
