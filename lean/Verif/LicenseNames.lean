import Verif.LicenseTable
import Verif.LicensesProps

/-!
When the expressions of `src/licenses.c` find a license: for 62 of the 72 entries of the
table, exactly when one of a list of names occurs in the text (`namings`, `Occurs`).
-/

namespace Ohcount.Licenses

open Ohcount Ohcount.Pcre

/-! ### The engine -/

/-- `compile_regexps` on one expression: `PCRE_MULTILINE` adds `PCRE_DOTALL`,
src/licenses.c:748-757. -/
def Source.rx (s : Source) : Option Rx := compile s.caseless s.multiline s.re

/-- PCRE with the compiled expressions of the table, src/licenses.c:738-760, 829-836. `vt`:
whether `\s` includes the vertical tab, which depends on the version of PCRE. -/
def pcre (vt : Bool) : Engine where
  find j t := match (entries[j]?).bind (·.re.rx) with
    | some r => Pcre.find vt r t
    | none => none
  excluded j t := match (entries[j]?).bind fun e => e.exclude.bind Source.rx with
    | some r => (Pcre.find vt r t).isSome
    | none => false

/-- The table is the one of the detection model, and every expression in it is in the
modelled syntax. -/
theorem entries_ok : (entries.map fun e => (⟨e.name, e.exclude.isSome⟩ : License)) = licenseMap ∧
    ∀ e ∈ entries, e.re.rx ≠ none ∧ ∀ s, e.exclude = some s → s.rx ≠ none := by
  constructor
  · decide +kernel
  · have h : entries.all (fun e => e.re.rx.isSome && match e.exclude with
        | some s => s.rx.isSome
        | none => true) = true := by decide +kernel
    intro e he
    have := List.all_eq_true.mp h e he
    rw [Bool.and_eq_true] at this
    refine ⟨?_, fun s hs => ?_⟩
    · intro hc; rw [hc] at this; simp at this
    · rw [hs] at this
      intro hc; simp only [hc] at this; simp at this

/-! ### Names in a text -/

/-- A name as it is written in the lists below: `_` is any white space or none, `+` is white
space, every other character is itself, in upper or lower case. -/
structure Phrase where
  /-- the name -/
  text : List Char
  /-- a letter, digit or underscore directly before it spoils it -/
  left : Bool
  /-- and directly after it -/
  right : Bool
  deriving DecidableEq

/-- The name as separate words. -/
def words (s : List Char) : Phrase := ⟨s, true, true⟩
/-- The name at the start of a word. -/
def startOf (s : List Char) : Phrase := ⟨s, true, false⟩
/-- The name anywhere. -/
def anywhere (s : List Char) : Phrase := ⟨s, false, false⟩

/-- The bytes `m` spell the name. -/
def Spells (vt : Bool) : List Char → Bytes → Prop
  | [], m => m = []
  | c :: cs, m =>
    if c = '_' then ∃ s r, m = s ++ r ∧ (∀ x ∈ s, isSpace vt x = true) ∧ Spells vt cs r
    else if c = '+' then
      ∃ s r, m = s ++ r ∧ s ≠ [] ∧ (∀ x ∈ s, isSpace vt x = true) ∧ Spells vt cs r
    else ∃ x r, m = x :: r ∧ lower x = byteOf c ∧ Spells vt cs r

/-- The text ends with a letter, a digit or an underscore. -/
def endsWord (p : Bytes) : Bool := match p.getLast? with
  | some x => isWord x
  | none => false

/-- The text starts with a letter, a digit or an underscore. -/
def startsWord (s : Bytes) : Bool := match s.head? with
  | some x => isWord x
  | none => false

/-- The name occurs in the text. -/
def Occurs (vt : Bool) (p : Phrase) (t : Bytes) : Prop :=
  ∃ before m after, t = before ++ m ++ after ∧ Spells vt p.text m ∧
    (p.left = true → endsWord before = false) ∧ (p.right = true → startsWord after = false)

/-- The names by which the entries of the table are found, all but ten entries. -/
def namings : List (String × List Phrase) := [
  ("academic", [words chars!"academic_free_license"]),
  ("adaptive", [words chars!"adaptive_public_license"]),
  ("affero", [words chars!"gnu+affero+general+public+license"]),
  ("apache_2", [
      startOf chars!"apache+software+license,+version+2", startOf chars!"apache+software+license,+2",
      startOf chars!"apache+software+license+version+2", startOf chars!"apache+software+license+2",
      startOf chars!"apache+license,+version+2", startOf chars!"apache+license,+2",
      startOf chars!"apache+license+version+2", startOf chars!"apache+license+2"]),
  ("apple_open_source", [words chars!"apple_public_source_license"]),
  ("artistic", [words chars!"artistic_license"]),
  ("attribution_assurance", [
      words chars!"attribution_assurance_licenses", words chars!"attribution_assurance_license"]),
  ("boost", [words chars!"boost_software_license"]),
  ("bsd", [words chars!"bsd_license", anywhere chars!"the regents of the university of california"]),
  ("cecill", [words chars!"cecill"]),
  ("cecill_b", [words chars!"cecill-b"]),
  ("cecill_c", [words chars!"cecill-c"]),
  ("computer_associates_trusted", [words chars!"computer_associates_trusted_open_source_license"]),
  ("common_development_and_distribution", [words chars!"common_development_and_distribution_license"]),
  ("common_public", [words chars!"common_public_license"]),
  ("cua_office", [words chars!"cua_office_public_license"]),
  ("eu_datagrid", [words chars!"eu_datagrid_software_license"]),
  ("eclipse", [words chars!"eclipse_public_license"]),
  ("educational", [words chars!"educational_community_license"]),
  ("entessa", [words chars!"entessa_public_license"]),
  ("fair", [words chars!"fair_license"]),
  ("frameworx", [words chars!"frameworx_license"]),
  ("gpl", [
      words chars!"gpl", words chars!"gplv2", words chars!"gnu_general_public_license",
      words chars!"www.gnu.org/licenses/gpl.txt"]),
  ("lgpl", [
      words chars!"lgpl", words chars!"gnu_library_general_public_license",
      words chars!"gnu_library_general_license", words chars!"gnu_library_public_license",
      words chars!"gnu_library_license", words chars!"gnu_lesser_general_public_license",
      words chars!"gnu_lesser_general_license", words chars!"gnu_lesser_public_license",
      words chars!"gnu_lesser_license", words chars!"lesser_gpl", words chars!"library_gpl"]),
  ("historical", [words chars!"historical_permission_notice_and_disclaimer"]),
  ("i9_license", [words chars!"i9__license"]),
  ("ibm_public", [words chars!"ibm_public_license"]),
  ("intel_open_source", [words chars!"intel_open_source_license"]),
  ("jabber_open_source", [words chars!"jabber_open_source_license"]),
  ("lucent_public", [startOf chars!"lucent_public_license_version+1", startOf chars!"lucent_public_license_+1"]),
  ("mit", [words chars!"mit_license", words chars!"mit/x11_licensed", words chars!"mit/x11_license"]),
  ("mitre", [words chars!"mitre_collaborative_virtual_workspace_license"]),
  ("motosoto", [words chars!"motosoto_license"]),
  ("mozilla_public_1", [words chars!"mozilla_public_license"]),
  ("mozilla_public_1_1", [words chars!"mozilla_public_license 1.1"]),
  ("nasa_open", [words chars!"nasa_open_source_agreement"]),
  ("naumen", [words chars!"naumen_public_license"]),
  ("nethack", [words chars!"nethack_general_public_license"]),
  ("nokia_open_source", [words chars!"nokia_open_source_license"]),
  ("oclc_research", [words chars!"oclc_research_public_license"]),
  ("open_group_test", [words chars!"open_group_test_suite_license"]),
  ("open_software", [words chars!"open_software_license"]),
  ("php_license", [words chars!"php_license"]),
  ("python_license", [words chars!"python_license"]),
  ("python_software_foundation", [words chars!"python_software_foundation_license"]),
  ("qt_public", [words chars!"qt_public_license"]),
  ("realnetworks_public_source", [words chars!"realnetworks_public_source_license"]),
  ("reciprocal_public", [words chars!"reciprocal_public_license"]),
  ("ricoh_source", [words chars!"ricoh_source_code_public_license"]),
  ("sleepycat", [words chars!"sleepycat_license"]),
  ("sugarcrm_1_1_3", [words chars!"sugar_public_license_version_1.1.3"]),
  ("sun_industry_standards", [words chars!"sun_industry_standards_source_license"]),
  ("sun_public", [words chars!"sun_public_license"]),
  ("sybase_open_watcom", [words chars!"sybase_open_watcom_public_license"]),
  ("u_of_i_ncsa", [words chars!"university_of_illinois/ncsa_open_source_license"]),
  ("vovida_software", [words chars!"vovida_software_license"]),
  ("w3c", [words chars!"w3c_license"]),
  ("wx_windows", [words chars!"wxwindows_library_license"]),
  ("x_net", [words chars!"x.net_license"]),
  ("zope", [words chars!"zope_public_license"]),
  ("zlib_libpng", [words chars!"zlib/libpng_license"]),
  ("wtfpl_2", [
      words chars!"wtfpl", words chars!"wtf_public_license", words chars!"do_what_the_\x0cuck_public_license",
      words chars!"what_the_\x0cuck_public_license"])
]

/-! ### From expressions to names -/

/-- An expression without alternatives: its parts in a row. -/
def flat : Rx → List (List Rx)
  | .eps => [[]]
  | .cat a b => (flat a).flatMap fun x => (flat b).map (x ++ ·)
  | .alt a b => flat a ++ flat b
  | .opt a => flat a ++ [[]]
  | .set c => [[.set c]]
  | .rep c lo hi => [[.rep c lo hi]]
  | .bound => [[.bound]]
  | .lineStart => [[.lineStart]]
  | .notAhead a => [[.notAhead a]]

/-- The parts match one after the other. -/
def InRow (vt : Bool) (t : Bytes) : List Rx → Nat → Nat → Prop
  | [], i, j => i = j
  | r :: rs, i, j => ∃ m, Matches vt t r i m ∧ InRow vt t rs m j

theorem inRow_append (vt : Bool) (t : Bytes) (a b : List Rx) : ∀ i j,
    InRow vt t (a ++ b) i j ↔ ∃ m, InRow vt t a i m ∧ InRow vt t b m j := by
  induction a with
  | nil =>
    intro i j
    simp only [List.nil_append, InRow]
    constructor
    · intro h; exact ⟨i, rfl, h⟩
    · rintro ⟨m, rfl, h⟩; exact h
  | cons r rs ih =>
    intro i j
    simp only [List.cons_append, InRow]
    constructor
    · rintro ⟨m, h1, h2⟩
      obtain ⟨n, h3, h4⟩ := (ih m j).mp h2
      exact ⟨n, ⟨m, h1, h3⟩, h4⟩
    · rintro ⟨n, ⟨m, h1, h3⟩, h4⟩
      exact ⟨m, h1, (ih m j).mpr ⟨n, h3, h4⟩⟩

theorem inRow_one (vt : Bool) (t : Bytes) (r : Rx) (i j : Nat) :
    InRow vt t [r] i j ↔ Matches vt t r i j := by
  simp only [InRow]
  constructor
  · rintro ⟨m, h, rfl⟩; exact h
  · intro h; exact ⟨j, h, rfl⟩

theorem flat_iff (vt : Bool) (t : Bytes) (r : Rx) : ∀ i j,
    Matches vt t r i j ↔ ∃ s ∈ flat r, InRow vt t s i j := by
  induction r with
  | eps => intro i j; simp [flat, Matches, InRow]
  | set c => intro i j; simp only [flat, List.mem_singleton, exists_eq_left, inRow_one]
  | rep c lo hi => intro i j; simp only [flat, List.mem_singleton, exists_eq_left, inRow_one]
  | lineStart => intro i j; simp only [flat, List.mem_singleton, exists_eq_left, inRow_one]
  | bound => intro i j; simp only [flat, List.mem_singleton, exists_eq_left, inRow_one]
  | notAhead a _ => intro i j; simp only [flat, List.mem_singleton, exists_eq_left, inRow_one]
  | cat a b iha ihb =>
    intro i j
    simp only [flat, Matches, List.mem_flatMap, List.mem_map]
    constructor
    · rintro ⟨m, h1, h2⟩
      obtain ⟨x, hx, h3⟩ := (iha _ _).mp h1
      obtain ⟨y, hy, h4⟩ := (ihb _ _).mp h2
      exact ⟨x ++ y, ⟨x, hx, y, hy, rfl⟩, (inRow_append ..).mpr ⟨m, h3, h4⟩⟩
    · rintro ⟨s, ⟨x, hx, y, hy, rfl⟩, h⟩
      obtain ⟨m, h3, h4⟩ := (inRow_append ..).mp h
      exact ⟨m, (iha _ _).mpr ⟨x, hx, h3⟩, (ihb _ _).mpr ⟨y, hy, h4⟩⟩
  | alt a b iha ihb =>
    intro i j
    simp only [flat, Matches, List.mem_append, iha, ihb]
    constructor
    · rintro (⟨s, h1, h2⟩ | ⟨s, h1, h2⟩)
      · exact ⟨s, Or.inl h1, h2⟩
      · exact ⟨s, Or.inr h1, h2⟩
    · rintro ⟨s, h1 | h1, h2⟩
      · exact Or.inl ⟨s, h1, h2⟩
      · exact Or.inr ⟨s, h1, h2⟩
  | opt a iha =>
    intro i j
    simp only [flat, Matches, List.mem_append, List.mem_singleton, iha]
    constructor
    · rintro (⟨s, h1, h2⟩ | h)
      · exact ⟨s, Or.inl h1, h2⟩
      · exact ⟨[], Or.inr rfl, h⟩
    · rintro ⟨s, h1 | rfl, h2⟩
      · exact Or.inl ⟨s, h1, h2⟩
      · exact Or.inr h2

/-- The part of an expression for a character of a name. -/
def leaf (c : Char) : Rx :=
  if c = '_' then .rep [.space] 0 none
  else if c = '+' then .rep [.space] 1 none
  else .set [.fold (byteOf c)]

/-- The parts of an expression for a name. -/
def Phrase.parts (p : Phrase) : List Rx :=
  (if p.left then [.bound] else []) ++ p.text.map leaf ++ (if p.right then [.bound] else [])

theorem stretch_cons (t : Bytes) (i j : Nat) (x : Byte) (hx : t[i]? = some x) (h : i < j) :
    (t.drop i).take (j - i) = x :: (t.drop (i + 1)).take (j - (i + 1)) := by
  obtain ⟨hl, hx⟩ := List.getElem?_eq_some_iff.mp hx
  rw [List.drop_eq_getElem_cons hl, hx, show j - i = (j - (i + 1)) + 1 by omega, List.take_succ_cons]

theorem stretch_append (t : Bytes) (i m j : Nat) (h1 : i ≤ m) (h2 : m ≤ j) :
    (t.drop i).take (j - i) = (t.drop i).take (m - i) ++ (t.drop m).take (j - m) := by
  rw [show j - i = (m - i) + (j - m) by omega, List.take_add, List.drop_drop,
    show i + (m - i) = m by omega]

theorem InRow.le {vt : Bool} {t : Bytes} : ∀ {s : List Rx} {i j : Nat}, InRow vt t s i j → i ≤ j := by
  intro s
  induction s with
  | nil => intro i j h; exact Nat.le_of_eq h
  | cons r rs ih => rintro i j ⟨m, h1, h2⟩; exact Nat.le_trans h1.le (ih h2)

theorem InRow.inside {vt : Bool} {t : Bytes} : ∀ {s : List Rx} {i j : Nat}, InRow vt t s i j →
    i ≤ t.length → j ≤ t.length := by
  intro s
  induction s with
  | nil => intro i j h hi; exact (show i = j from h) ▸ hi
  | cons r rs ih => rintro i j ⟨m, h1, h2⟩ hi; exact ih h2 (h1.inside hi)

/-- The bytes of a matched repetition of white space. -/
theorem spaces_of_rep {vt : Bool} {t : Bytes} {lo : Nat} {i m : Nat}
    (h : Matches vt t (.rep [.space] lo none) i m) :
    (∀ x ∈ (t.drop i).take (m - i), isSpace vt x = true) ∧ ((t.drop i).take (m - i)).length = m - i ∧
      lo ≤ m - i := by
  obtain ⟨n, rfl, h1, _, h3⟩ := h
  rw [show i + n - i = n by omega]
  have hlen : ((t.drop i).take n).length = n := by
    rw [List.length_take, List.length_drop]
    by_cases hn : n = 0
    · omega
    · obtain ⟨x, hx, _⟩ := h3 (i + n - 1) (by omega) (by omega)
      have := (List.getElem?_eq_some_iff.mp hx).1
      omega
  refine ⟨fun x hx => ?_, hlen, by omega⟩
  obtain ⟨k, hk, e⟩ := List.mem_iff_getElem.mp hx
  rw [hlen] at hk
  obtain ⟨y, hy, hs⟩ := h3 (i + k) (by omega) (by omega)
  rw [List.getElem_take, List.getElem_drop] at e
  rw [List.getElem?_eq_getElem (List.getElem?_eq_some_iff.mp hy).1, e] at hy
  injection hy with hy
  rw [← hy] at hs
  simpa [inClass, Atom.mem] using hs

theorem spells_of_row {vt : Bool} {t : Bytes} : ∀ (cs : List Char) (i j : Nat),
    InRow vt t (cs.map leaf) i j → Spells vt cs ((t.drop i).take (j - i)) := by
  intro cs
  induction cs with
  | nil =>
    intro i j h
    have : i = j := h
    subst this
    simp [Spells]
  | cons c cs ih =>
    rintro i j ⟨m, h1, h2⟩
    have h3 := ih m j h2
    have hle := h2.le
    simp only [Spells]
    unfold leaf at h1
    split
    · rename_i hc
      rw [if_pos hc] at h1
      have hs := spaces_of_rep h1
      exact ⟨_, _, stretch_append t i m j h1.le hle, hs.1, h3⟩
    · rename_i hc
      rw [if_neg hc] at h1
      split
      · rename_i hc2
        rw [if_pos hc2] at h1
        have hs := spaces_of_rep h1
        refine ⟨_, _, stretch_append t i m j h1.le hle, ?_, hs.1, h3⟩
        intro e
        rw [e] at hs
        simp at hs
        omega
      · rename_i hc2
        rw [if_neg hc2] at h1
        obtain ⟨rfl, x, hx, hm⟩ := h1
        refine ⟨x, _, stretch_cons t i j x hx (by omega), ?_, h3⟩
        simpa [inClass, Atom.mem] using hm

theorem rep_of_spaces (vt : Bool) (lo : Nat) (p s r : Bytes) (hlo : lo ≤ s.length)
    (h : ∀ x ∈ s, isSpace vt x = true) :
    Matches vt (p ++ (s ++ r)) (.rep [.space] lo none) p.length (p.length + s.length) := by
  refine ⟨s.length, rfl, hlo, fun h e => by (cases e), fun k h1 h2 => ?_⟩
  have hk : k - p.length < s.length := by omega
  refine ⟨s[k - p.length], ?_, ?_⟩
  · rw [List.getElem?_append_right h1, List.getElem?_append_left hk, List.getElem?_eq_getElem hk]
  · simp [inClass, Atom.mem, h _ (List.getElem_mem hk)]

theorem row_of_spells {vt : Bool} : ∀ (cs : List Char) (p m s : Bytes), Spells vt cs m →
    InRow vt (p ++ (m ++ s)) (cs.map leaf) p.length (p.length + m.length) := by
  intro cs
  induction cs with
  | nil => intro p m s h; rw [show m = [] from h]; rfl
  | cons c cs ih =>
    intro p m s h
    simp only [Spells] at h
    simp only [List.map_cons, InRow]
    rw [show leaf c = if c = '_' then .rep [.space] 0 none else if c = '+' then .rep [.space] 1 none
      else .set [.fold (byteOf c)] from rfl]
    have step : ∀ lo w r, m = w ++ r → lo ≤ w.length → (∀ x ∈ w, isSpace vt x = true) →
        Spells vt cs r → ∃ k, Matches vt (p ++ (m ++ s)) (.rep [.space] lo none) p.length k ∧
          InRow vt (p ++ (m ++ s)) (cs.map leaf) k (p.length + m.length) := by
      rintro lo w r rfl hlo hw hr
      refine ⟨p.length + w.length, ?_, ?_⟩
      · rw [List.append_assoc]; exact rep_of_spaces vt lo p w (r ++ s) hlo hw
      · have := ih (p ++ w) r s hr
        simpa [List.append_assoc, Nat.add_assoc] using this
    split
    · rename_i hc
      rw [if_pos hc] at h
      obtain ⟨w, r, e, hw, hr⟩ := h
      exact step 0 w r e (Nat.zero_le _) hw hr
    · rename_i hc
      rw [if_neg hc] at h
      split
      · rename_i hc2
        rw [if_pos hc2] at h
        obtain ⟨w, r, e, hne, hw, hr⟩ := h
        exact step 1 w r e (List.length_pos_iff.mpr hne) hw hr
      · rename_i hc2
        rw [if_neg hc2] at h
        obtain ⟨x, r, rfl, hx, hr⟩ := h
        refine ⟨p.length + 1, ⟨rfl, x, ?_, ?_⟩, ?_⟩
        · rw [List.getElem?_append_right (Nat.le_refl _)]; simp
        · simp [inClass, Atom.mem, hx]
        · have := ih (p ++ [x]) r s hr
          simpa [List.append_assoc, Nat.add_assoc, Nat.add_comm r.length] using this

/-! ### The edges of a name -/

theorem isWord_lower (x : Byte) : isWord (lower x) = isWord x := by
  revert x
  exact byte_forall (by decide +kernel)

/-- A character of a name that is a letter or a digit. -/
def plain (c : Char) : Bool := c != '_' && c != '+' && isWord (byteOf c)

/-- The name starts (ends) with a letter or digit where no other may come before (after). -/
def Phrase.ok (p : Phrase) : Bool :=
  (!p.left || (p.text.head?).any plain) && (!p.right || (p.text.getLast?).any plain)

theorem spells_append (vt : Bool) (b : List Char) : ∀ (a : List Char) (m : Bytes),
    Spells vt (a ++ b) m ↔ ∃ m1 m2, m = m1 ++ m2 ∧ Spells vt a m1 ∧ Spells vt b m2 := by
  intro a
  induction a with
  | nil =>
    intro m
    simp only [List.nil_append, Spells]
    constructor
    · intro h; exact ⟨[], m, rfl, rfl, h⟩
    · rintro ⟨m1, m2, rfl, rfl, h⟩; exact h
  | cons c a ih =>
    intro m
    simp only [List.cons_append, Spells]
    split
    · constructor
      · rintro ⟨s, r, rfl, hs, hr⟩
        obtain ⟨m1, m2, rfl, h1, h2⟩ := (ih r).mp hr
        exact ⟨s ++ m1, m2, by simp, ⟨s, m1, rfl, hs, h1⟩, h2⟩
      · rintro ⟨m1, m2, rfl, ⟨s, r, rfl, hs, hr⟩, h2⟩
        exact ⟨s, r ++ m2, by simp, hs, (ih _).mpr ⟨r, m2, rfl, hr, h2⟩⟩
    · split
      · constructor
        · rintro ⟨s, r, rfl, hn, hs, hr⟩
          obtain ⟨m1, m2, rfl, h1, h2⟩ := (ih r).mp hr
          exact ⟨s ++ m1, m2, by simp, ⟨s, m1, rfl, hn, hs, h1⟩, h2⟩
        · rintro ⟨m1, m2, rfl, ⟨s, r, rfl, hn, hs, hr⟩, h2⟩
          exact ⟨s, r ++ m2, by simp, hn, hs, (ih _).mpr ⟨r, m2, rfl, hr, h2⟩⟩
      · constructor
        · rintro ⟨x, r, rfl, hx, hr⟩
          obtain ⟨m1, m2, rfl, h1, h2⟩ := (ih r).mp hr
          exact ⟨x :: m1, m2, by simp, ⟨x, m1, rfl, hx, h1⟩, h2⟩
        · rintro ⟨m1, m2, rfl, ⟨x, r, rfl, hx, hr⟩, h2⟩
          exact ⟨x, r ++ m2, by simp, hx, (ih _).mpr ⟨r, m2, rfl, hr, h2⟩⟩

theorem spells_plain {vt : Bool} {c : Char} {cs : List Char} {m : Bytes} (hc : plain c = true)
    (h : Spells vt (c :: cs) m) : ∃ x r, m = x :: r ∧ isWord x = true ∧ Spells vt cs r := by
  unfold plain at hc
  simp only [Bool.and_eq_true, bne_iff_ne, ne_eq] at hc
  simp only [Spells, hc.1.1, hc.1.2, if_false] at h
  obtain ⟨x, r, e, hx, hr⟩ := h
  exact ⟨x, r, e, by rw [← isWord_lower, hx]; exact hc.2, hr⟩

/-- What spells a name starts with a letter or digit, if the name does. -/
theorem spells_first {vt : Bool} {cs : List Char} {m : Bytes} (hc : cs.head?.any plain = true)
    (h : Spells vt cs m) : startsWord m = true := by
  cases cs with
  | nil => simp at hc
  | cons c cs =>
    obtain ⟨x, r, rfl, hx, _⟩ := spells_plain (by simpa using hc) h
    simpa [startsWord] using hx

theorem spells_last {vt : Bool} {cs : List Char} {m : Bytes} (hc : cs.getLast?.any plain = true)
    (h : Spells vt cs m) : endsWord m = true := by
  cases hg : cs.getLast? with
  | none => rw [hg] at hc; simp at hc
  | some c =>
    rw [hg] at hc
    obtain ⟨a, e⟩ := List.getLast?_eq_some_iff.mp hg
    subst e
    obtain ⟨m1, m2, rfl, _, h2⟩ := (spells_append ..).mp h
    obtain ⟨x, r, rfl, hx, hr⟩ := spells_plain (by simpa using hc) h2
    rw [show r = [] from hr]
    simpa [endsWord] using hx

theorem wordBefore_append (p s : Bytes) : wordBefore (p ++ s) p.length = endsWord p := by
  rcases List.eq_nil_or_concat p with rfl | ⟨q, x, rfl⟩
  · rfl
  · simp [wordBefore, endsWord, wordAt]

theorem wordAt_append (p s : Bytes) : wordAt (p ++ s) p.length = startsWord s := by
  unfold wordAt startsWord
  rw [List.getElem?_append_right (Nat.le_refl _), Nat.sub_self, List.head?_eq_getElem?]
  cases s[0]? <;> rfl

theorem startsWord_append (m s : Bytes) (h : startsWord m = true) : startsWord (m ++ s) = true := by
  cases m with
  | nil => cases h
  | cons x m => exact h

theorem endsWord_append (p m : Bytes) (h : endsWord m = true) : endsWord (p ++ m) = true := by
  unfold endsWord at *
  cases hg : m.getLast? with
  | none => rw [hg] at h; cases h
  | some x => rw [List.getLast?_append, hg]; rw [hg] at h; exact h

/-- The parts of a name match a stretch exactly if the stretch spells the name and its
edges are right. -/
theorem parts_iff (vt : Bool) (p : Phrase) (hp : p.ok = true) (t : Bytes) (i j : Nat) :
    (i ≤ t.length ∧ InRow vt t p.parts i j) ↔ ∃ b m a, t = b ++ m ++ a ∧ i = b.length ∧
      j = b.length + m.length ∧ Spells vt p.text m ∧ (p.left = true → endsWord b = false) ∧
      (p.right = true → startsWord a = false) := by
  unfold Phrase.ok at hp
  simp only [Bool.and_eq_true, Bool.or_eq_true, Bool.not_eq_true'] at hp
  unfold Phrase.parts
  constructor
  · rintro ⟨hi, h⟩
    rw [inRow_append] at h
    obtain ⟨j', h, h3⟩ := h
    rw [inRow_append] at h
    obtain ⟨i', h1, h2⟩ := h
    have hi' : i' = i := by
      split at h1
      · rw [inRow_one] at h1; exact h1.1.symm
      · exact (show i = i' from h1).symm
    have hj' : j' = j := by
      split at h3
      · rw [inRow_one] at h3; exact h3.1
      · exact h3
    subst hi'; subst hj'
    have hj := h2.inside hi
    have hle := h2.le
    have hs := spells_of_row _ _ _ h2
    have e1 : t = t.take i' ++ (t.drop i').take (j' - i') ++ t.drop j' := by
      conv => lhs; rw [← List.take_append_drop i' t, ← List.take_append_drop (j' - i') (t.drop i')]
      rw [List.drop_drop, show i' + (j' - i') = j' by omega, List.append_assoc]
    have l1 : (t.take i').length = i' := by rw [List.length_take]; omega
    have l2 : (t.take i' ++ (t.drop i').take (j' - i')).length = j' := by
      rw [List.length_append, l1, List.length_take, List.length_drop]; omega
    refine ⟨_, _, _, e1, l1.symm, by rw [← List.length_append, l2], hs, fun h => ?_, fun h => ?_⟩
    · rw [if_pos h, inRow_one] at h1
      have hb := h1.2
      have w := wordBefore_append (t.take i') ((t.drop i').take (j' - i') ++ t.drop j')
      have w2 := wordAt_append (t.take i') ((t.drop i').take (j' - i') ++ t.drop j')
      rw [← List.append_assoc, ← e1, l1] at w w2
      rw [w, w2, startsWord_append _ _ (spells_first (hp.1.resolve_left (by simp [h])) hs)] at hb
      simpa using hb
    · rw [if_pos h, inRow_one] at h3
      have hb := h3.2
      have w := wordBefore_append (t.take i' ++ (t.drop i').take (j' - i')) (t.drop j')
      have w2 := wordAt_append (t.take i' ++ (t.drop i').take (j' - i')) (t.drop j')
      rw [← e1, l2] at w w2
      rw [w, w2, endsWord_append _ _ (spells_last (hp.2.resolve_left (by simp [h])) hs)] at hb
      simpa using hb.symm
  · rintro ⟨b, m, a, rfl, rfl, rfl, hs, hl, hr⟩
    refine ⟨by simp, ?_⟩
    rw [inRow_append]
    refine ⟨b.length + m.length, ?_, ?_⟩
    · rw [inRow_append]
      refine ⟨b.length, ?_, ?_⟩
      · split
        · rename_i h
          rw [inRow_one]
          refine ⟨rfl, ?_⟩
          rw [List.append_assoc, wordBefore_append, wordAt_append, hl h,
            startsWord_append _ _ (spells_first (hp.1.resolve_left (by simp [h])) hs)]
          decide
        · rfl
      · rw [List.append_assoc]; exact row_of_spells _ b m a hs
    · split
      · rename_i h
        rw [inRow_one]
        refine ⟨rfl, ?_⟩
        have e : b.length + m.length = (b ++ m).length := by simp
        rw [e, wordBefore_append, wordAt_append, hr h,
          endsWord_append _ _ (spells_last (hp.2.resolve_left (by simp [h])) hs)]
        decide
      · rfl

/-- A name occurs in a text exactly if its parts match a stretch of it. -/
theorem occurs_iff (vt : Bool) (p : Phrase) (hp : p.ok = true) (t : Bytes) :
    Occurs vt p t ↔ ∃ i j, i ≤ t.length ∧ InRow vt t p.parts i j := by
  constructor
  · rintro ⟨b, m, a, e, hs, hl, hr⟩
    exact ⟨_, _, (parts_iff vt p hp t _ _).mpr ⟨b, m, a, e, rfl, rfl, hs, hl, hr⟩⟩
  · rintro ⟨i, j, h⟩
    obtain ⟨b, m, a, e, _, _, hs, hl, hr⟩ := (parts_iff vt p hp t i j).mp h
    exact ⟨b, m, a, e, hs, hl, hr⟩

/-- An expression is no more and no less than a list of names. -/
def agrees (e : Entry) (ps : List Phrase) : Bool := match e.re.rx with
  | none => false
  | some r => ps.all Phrase.ok && ps.all (fun p => (flat r).contains p.parts) &&
      (flat r).all fun s => (ps.map Phrase.parts).contains s

theorem namings_agree : namings.all (fun n => entries.all fun e => e.name != n.1 || agrees e n.2) = true := by
  decide +kernel

/-- C92: the expression of an entry finds something in a text exactly if one of the names
listed for it in `namings` occurs in the text. -/
theorem C92_found_iff (vt : Bool) (name : String) (ps : List Phrase) (hn : (name, ps) ∈ namings)
    (j : Nat) (e : Entry) (he : entries[j]? = some e) (hname : e.name = name) (t : Bytes) :
    (pcre vt).find j t ≠ none ↔ ∃ p ∈ ps, Occurs vt p t := by
  have h := List.all_eq_true.mp (List.all_eq_true.mp namings_agree _ hn) e (List.mem_of_getElem? he)
  simp only [hname, bne_self_eq_false, Bool.false_or] at h
  unfold agrees at h
  simp only [pcre, he, Option.bind_some]
  cases hr : e.re.rx with
  | none => rw [hr] at h; cases h
  | some r =>
    rw [hr] at h
    simp only [Bool.and_eq_true, List.all_eq_true, List.contains_iff_mem, List.mem_map] at h
    simp only [find_iff, flat_iff]
    constructor
    · rintro ⟨i, k, hi, s, hs, hm⟩
      obtain ⟨p, hp, rfl⟩ := h.2 s hs
      exact ⟨p, hp, (occurs_iff vt p (h.1.1 p hp) t).mpr ⟨i, k, hi, hm⟩⟩
    · rintro ⟨p, hp, ho⟩
      obtain ⟨i, k, hi, hm⟩ := (occurs_iff vt p (h.1.1 p hp) t).mp ho
      exact ⟨i, k, hi, p.parts, h.1.2 p hp, hm⟩

/-- C92: of all bytes, which are white space, which are part of a word, and which are in
upper case. -/
theorem C92_characters :
    let all : Bytes := (List.range 256).map UInt8.ofNat
    all.filter (isSpace false) = chars!"\t\n\x0c\r ".map byteOf ∧
    all.filter (isSpace true) = chars!"\t\n\x0b\x0c\r ".map byteOf ∧
    all.filter isWord =
      chars!"0123456789ABCDEFGHIJKLMNOPQRSTUVWXYZ_abcdefghijklmnopqrstuvwxyz".map byteOf ∧
    all.filter (fun b => lower b != b) = chars!"ABCDEFGHIJKLMNOPQRSTUVWXYZ".map byteOf ∧
    (chars!"ABCDEFGHIJKLMNOPQRSTUVWXYZ".map byteOf).map lower =
      chars!"abcdefghijklmnopqrstuvwxyz".map byteOf := by
  decide +kernel

/-- A concrete case: the expression for the MIT license. -/
example : ("mit", [words chars!"mit_license", words chars!"mit/x11_licensed", words chars!"mit/x11_license"]) ∈ namings ∧
    entries[37]?.map Entry.name = some "mit" ∧
    (pcre true).find 37 (chars!"Under the MIT/X11 \t\tLicense, and submit license".map byteOf) = some (10, 27) ∧
    (pcre true).find 37 (chars!"submit license; mit_license; MIT licensees".map byteOf) = none := by
  refine ⟨by simp [namings], by decide +kernel, by decide +kernel, by decide +kernel⟩

end Ohcount.Licenses
