import Verif.DetectorMore
import Verif.LicensePieces

/-!
The three expressions of `src/detector.c`, with the model of PCRE in `Verif.Pcre` in place of
the parameters of `Verif.Detector`: Puppet and Pascal, and the first line of Perl scripts
(C100).
-/

namespace Ohcount.Detector

open Ohcount Ohcount.Tables Ohcount.Diff Ohcount.Pcre Ohcount.Licenses

/-! ### Model -/

/-- The first expression of `disambiguate_pp`, src/detector.c:914. -/
def keywordSource : List Char := chars!"^\\s*(ensure|content|notify|require|source)\\s+=>"

/-- The second expression of `disambiguate_pp`, src/detector.c:922. -/
def constructSource : List Char :=
  chars!"^\\s*(define\\s+[\\w:-]+\\s*\\(|class\\s+[\\w:-]+(\\s+inherits\\s+[\\w:-]+)?\\s*[\\({]|node\\s+\\'?[\\w:\\.-]+\\'?\\s*{|import\\s+\"|include\\s+[\"']?[\\w:-][\"']?)"

/-- The expression of `disambiguate_pl`, src/detector.c:939. -/
def perlSource : List Char := chars!"#![^\\n]*perl"

/-- `pcre_compile` with `PCRE_MULTILINE` and `pcre_exec` with a result above -1,
src/detector.c:914-917, 922-925. -/
def ppFinds (vt : Bool) (src : List Char) (t : Bytes) : Bool := match compile false false src with
  | some r => (Pcre.find vt r t).isSome
  | none => false

/-- `pcre_compile` with `PCRE_CASELESS` and `pcre_exec` with `PCRE_ANCHORED`, which looks for
a match at the start only, src/detector.c:939-940. -/
def plFinds (vt : Bool) (src : List Char) (t : Bytes) : Bool := match compile true false src with
  | some r => (scan vt t r some 0).isSome
  | none => false

/-- The libraries that detection calls, with PCRE modelled and libmagic left open. -/
def withPcre (vt : Bool) (magicFile magicBuffer : Bytes → Bytes) : Oracles where
  magicFile := magicFile
  magicBuffer := magicBuffer
  puppetKeyword := ppFinds vt keywordSource
  puppetConstruct := ppFinds vt constructSource
  perlShebang := plFinds vt perlSource

/-! ### Specification -/

/-- What makes a text Puppet, each at the start of a line after white space: an attribute with
an arrow, a definition, a class with or without its parent, a node with or without
quotes, an import, an include. -/
def puppetPassages : List (List Piece) :=
  [chars!"ensure", chars!"content", chars!"notify", chars!"require", chars!"source"].map (fun k =>
    [.newLine, .spaces 0 none, .exact k, .spaces 1 none, .exact chars!"=>"]) ++
  [[.newLine, .spaces 0 none, .exact chars!"define", .spaces 1 none, .name chars!":-" 1 none, .spaces 0 none,
      .exact chars!"("]] ++
  [[.spaces 1 none, .exact chars!"inherits", .spaces 1 none, .name chars!":-" 1 none], []].map (fun p =>
    [.newLine, .spaces 0 none, .exact chars!"class", .spaces 1 none, .name chars!":-" 1 none] ++ p ++
      [.spaces 0 none, .oneOf chars!"({"]) ++
  ([chars!"'", []].flatMap fun q => [chars!"'", []].map fun q' =>
    [.newLine, .spaces 0 none, .exact chars!"node", .spaces 1 none, .exact q, .name chars!":.-" 1 none,
      .exact q', .spaces 0 none, .exact chars!"{"]) ++
  [[.newLine, .spaces 0 none, .exact chars!"import", .spaces 1 none, .exact chars!"\""]] ++
  [[.oneOf chars!"\"'"], []].map (fun q =>
    [.newLine, .spaces 0 none, .exact chars!"include", .spaces 1 none] ++ q ++ [.name chars!":-" 1 (some 1)])

/-- A text is Puppet, not Pascal. -/
def IsPuppet (vt : Bool) (t : Bytes) : Prop := ∃ ps ∈ puppetPassages, Has vt ps t

/-- A text starts with `#!`, and in its first line there is `perl`, in either case. -/
def PerlFirstLine (t : Bytes) : Prop :=
  ∃ a b c, t = bs "#!" ++ a ++ b ++ c ∧ 10 ∉ a ∧ b.map Pcre.lower = bs "perl"

/-! ### Proofs -/

/-- The same passages with what the expression looks for after an include. -/
def puppetRows : List (List Piece) × List (List Piece) :=
  (puppetPassages.take 5, (puppetPassages.drop 5).take 8 ++
    ((puppetPassages.drop 13).flatMap fun p => [p ++ [.oneOf chars!"\"'"], p]))

theorem puppet_agree :
    (compile false false keywordSource).map flat = some (puppetRows.1.map (·.flatMap Piece.rx)) ∧
    (compile false false constructSource).map flat = some (puppetRows.2.map (·.flatMap Piece.rx)) := by
  decide +kernel

theorem ppFinds_iff (vt : Bool) (src : List Char) (l : List (List Piece))
    (h : (compile false false src).map flat = some (l.map (·.flatMap Piece.rx))) (t : Bytes) :
    ppFinds vt src t = true ↔ ∃ ps ∈ l, Has vt ps t := by
  unfold ppFinds
  cases hr : compile false false src with
  | none => rw [hr] at h; cases h
  | some r =>
    rw [hr] at h
    have h : flat r = _ := Option.some.inj h
    simp only [Option.isSome_iff_ne_none, find_iff, flat_iff, h]
    constructor
    · rintro ⟨i, k, hi, s', hs, hm⟩
      obtain ⟨ps, hp, rfl⟩ := List.mem_map.mp hs
      exact ⟨ps, hp, (has_iff _ _ _).mpr ⟨i, k, hi, hm⟩⟩
    · rintro ⟨ps, hp, h⟩
      obtain ⟨i, k, hi, hm⟩ := (has_iff _ _ _).mp h
      exact ⟨i, k, hi, _, List.mem_map.mpr ⟨ps, hp, rfl⟩, hm⟩

theorem composed_append (vt : Bool) (ps qs : List Piece) : ∀ (b m a : Bytes),
    Composed vt (ps ++ qs) b m a ↔ ∃ m1 m2, m = m1 ++ m2 ∧ Composed vt ps b m1 (m2 ++ a) ∧
      Composed vt qs (b ++ m1) m2 a := by
  induction ps with
  | nil =>
    intro b m a
    simp only [List.nil_append, Composed]
    constructor
    · intro h; exact ⟨[], m, rfl, rfl, by simpa using h⟩
    · rintro ⟨m1, m2, rfl, rfl, h⟩; simpa using h
  | cons p ps ih =>
    intro b m a
    simp only [List.cons_append, Composed, ih]
    constructor
    · rintro ⟨m1, _, rfl, h1, m2, m3, rfl, h2, h3⟩
      exact ⟨m1 ++ m2, m3, by simp, ⟨m1, m2, rfl, by simpa using h1, by simpa using h2⟩, by simpa using h3⟩
    · rintro ⟨_, m3, rfl, ⟨m1, m2, rfl, h1, h2⟩, h3⟩
      exact ⟨m1, m2 ++ m3, by simp, by simpa using h1, m2, m3, rfl, by simpa using h2, by simpa using h3⟩

theorem has_prefix {vt : Bool} {ps qs : List Piece} {t : Bytes} (h : Has vt (ps ++ qs) t) : Has vt ps t := by
  obtain ⟨b, m, a, rfl, h⟩ := h
  obtain ⟨m1, m2, rfl, h1, _⟩ := (composed_append _ _ _ _ _ _).mp h
  exact ⟨b, m1, m2 ++ a, by simp, h1⟩

theorem puppet_lists : puppetPassages = puppetRows.1 ++ ((puppetPassages.drop 5).take 8 ++ puppetPassages.drop 13) := by
  decide +kernel

theorem puppet_iff (vt : Bool) (t : Bytes) :
    (ppFinds vt keywordSource t = true ∨ ppFinds vt constructSource t = true) ↔ IsPuppet vt t := by
  rw [ppFinds_iff vt _ _ puppet_agree.1, ppFinds_iff vt _ _ puppet_agree.2]
  unfold IsPuppet
  constructor
  · rintro (⟨ps, hp, h⟩ | ⟨ps, hp, h⟩)
    · exact ⟨ps, List.mem_of_mem_take hp, h⟩
    · rcases List.mem_append.mp hp with hp | hp
      · exact ⟨ps, List.mem_of_mem_drop (List.mem_of_mem_take hp), h⟩
      · obtain ⟨qs, hq, hp⟩ := List.mem_flatMap.mp hp
        simp only [List.mem_cons, List.not_mem_nil, or_false] at hp
        refine ⟨qs, List.mem_of_mem_drop hq, ?_⟩
        rcases hp with rfl | rfl
        · exact has_prefix h
        · exact h
  · rintro ⟨ps, hp, h⟩
    rw [puppet_lists] at hp
    rcases List.mem_append.mp hp with hp | hp
    · exact Or.inl ⟨ps, hp, h⟩
    · rcases List.mem_append.mp hp with hp | hp
      · exact Or.inr ⟨ps, List.mem_append_left _ hp, h⟩
      · exact Or.inr ⟨ps, List.mem_append_right _ (List.mem_flatMap.mpr ⟨ps, hp, by simp⟩), h⟩

theorem perl_agree : (compile true false perlSource).map flat =
    some [[Piece.folded chars!"#!", .inLine 0 none, .folded chars!"perl"].flatMap Piece.rx] := by
  decide +kernel

theorem lower_mark : ∀ x : Byte, (Pcre.lower x = 35 → x = 35) ∧ (Pcre.lower x = 33 → x = 33) :=
  byte_forall (by decide +kernel)

theorem perl_iff (vt : Bool) (t : Bytes) : plFinds vt perlSource t = true ↔ PerlFirstLine t := by
  unfold plFinds
  cases hr : compile true false perlSource with
  | none => have h := perl_agree; rw [hr] at h; cases h
  | some r =>
    have h := perl_agree
    rw [hr] at h
    have h : flat r = _ := Option.some.inj h
    simp only [Option.isSome_iff_ne_none, scan_ne, flat_iff, h, List.mem_singleton, exists_eq_left]
    have hc := fun j => composed_split vt [Piece.folded chars!"#!", .inLine 0 none, .folded chars!"perl"] [] t j
    simp only [List.nil_append, List.length_nil, Nat.zero_add] at hc
    simp only [hc]
    constructor
    · rintro ⟨j, ⟨m, c, rfl, rfl, x, r, rfl, h1, a, r, rfl, h2, b, r, rfl, h3, rfl⟩, _⟩
      refine ⟨a, b, c, ?_, h2.2, by rw [show b.map Pcre.lower = _ from h3]; decide⟩
      have h1 : x.map Pcre.lower = [35, 33] := by rw [show x.map Pcre.lower = _ from h1]; decide
      have h1 : x = bs "#!" := by
        cases x with
        | nil => cases h1
        | cons u x => cases x with
          | nil => exact absurd (congrArg List.length h1) (by simp)
          | cons v x => cases x with
            | cons w x => exact absurd (congrArg List.length h1) (by simp)
            | nil =>
              simp only [List.map_cons, List.map_nil, List.cons.injEq, and_true] at h1
              rw [(lower_mark u).1 h1.1, (lower_mark v).2 h1.2]; decide
      rw [h1]; simp
    · rintro ⟨a, b, c, rfl, h2, h3⟩
      refine ⟨_, ⟨bs "#!" ++ (a ++ b), c, by simp, rfl, bs "#!", a ++ b, rfl,
        show (bs "#!").map Pcre.lower = _ by decide, a, b, rfl,
        ⟨⟨Nat.zero_le _, fun h e => nomatch e⟩, h2⟩, b, [], (List.append_nil _).symm, ?_, rfl⟩, by simp⟩
      show b.map Pcre.lower = _
      rw [h3]; decide

/-! ### C100 -/

/-- C100: a `.pp` file is Puppet exactly if one of the constructs of Puppet starts a line in
the first 10000 bytes of its text; otherwise it is Pascal. -/
theorem C100_pp (vt : Bool) (mf mb : Bytes → Bytes) (st : Stack) (before : Byte) (stem c : Bytes)
    (disk : Option Bytes) (files : Option (List Bytes)) :
    let r := detect (withPcre vt mf mb) st before (source before (stem ++ bs "." ++ bs "pp") disk (some c) files)
    (IsPuppet vt ((cstr c).take 10000) → r = some (some "puppet")) ∧
    (¬ IsPuppet vt ((cstr c).take 10000) → r = some (some "pascal")) := by
  have h := ext_decides (withPcre vt mf mb) st before stem (bs "pp") "pp" disk (some c) files
    (by decide +kernel) (by decide +kernel)
  simp only [h, disambiguate, pp, source_contents]
  have hp := puppet_iff vt ((cstr c).take 10000)
  have e1 : (withPcre vt mf mb).puppetKeyword (firstBytes 10000 c) = ppFinds vt keywordSource ((cstr c).take 10000) := by
    simp only [withPcre, firstBytes]
  have e2 : (withPcre vt mf mb).puppetConstruct (firstBytes 10000 c) =
    ppFinds vt constructSource ((cstr c).take 10000) := by simp only [withPcre, firstBytes]
  rw [e1, e2]
  constructor
  · intro hh
    rcases hp.mpr hh with h1 | h1
    · rw [if_pos h1]
    · rw [if_pos h1]; split <;> rfl
  · intro hh
    rw [if_neg fun h1 => hh (hp.mp (Or.inl h1)), if_neg fun h1 => hh (hp.mp (Or.inr h1))]

/-- C100: a `.pl` file is Perl if its first line, as far as it is within the first 100 bytes,
starts with `#!` and has the word `perl`; else Prolog if it has a rule, and else Perl. -/
theorem C100_pl (vt : Bool) (mf mb : Bytes → Bytes) (st : Stack) (before : Byte) (stem c : Bytes)
    (disk : Option Bytes) (files : Option (List Bytes)) :
    let r := detect (withPcre vt mf mb) st before (source before (stem ++ bs "." ++ bs "pl") disk (some c) files)
    let rule := Occurs (bs ":- ") (cstr c) ∨ Occurs (bs ":-\n") (cstr c)
    (PerlFirstLine ((cstr c).take 100) ∨ ¬ rule → r = some (some "perl")) ∧
    (¬ PerlFirstLine ((cstr c).take 100) → rule → r = some (some "prolog")) := by
  have h := C52_pl (withPcre vt mf mb) st before stem c disk files
  have hp := perl_iff vt ((cstr c).take 100)
  simp only at h ⊢
  refine ⟨?_, fun h1 h2 => h.2.1 (fun h3 => h1 (hp.mp h3)) h2⟩
  rintro (h1 | h1)
  · exact h.1 (hp.mpr h1)
  · by_cases h2 : plFinds vt perlSource ((cstr c).take 100) = true
    · exact h.1 h2
    · exact h.2.2 h2 h1

/-- Concrete cases. -/
example (vt : Bool) : IsPuppet vt (bs "# x\n  class a::b inherits c\n{") ∧
    ¬ IsPuppet vt (bs "type t = class(u) end;\nx := class a;\n") := by
  rw [← puppet_iff, ← puppet_iff]
  cases vt <;> decide +kernel

example : PerlFirstLine (bs "#!/usr/bin/env Perl -w\n:- x") ∧ ¬ PerlFirstLine (bs "#!x\nperl") := by
  rw [← perl_iff true, ← perl_iff true]
  decide +kernel

example : detect (withPcre true (fun _ => []) (fun _ => [])) .strict 0
      (source 0 (bs "a" ++ bs "." ++ bs "pp") none (some (bs "node 'a.b' {")) none) = some (some "puppet") := by
  decide +kernel

end Ohcount.Detector
