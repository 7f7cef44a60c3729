/-
Model of `ohcount_detect_license` in `src/licenses.c`.  The regular-expression
engine (PCRE) is a parameter: for every license and text it yields a match or
nothing, and nothing else is assumed about it.
-/
import Verif.ParsedLanguage
import Verif.Diff

namespace Ohcount.Licenses

open Ohcount Ohcount.Diff

/-- The fields of a `License` (src/structs.h) the detection logic reads: the name,
and whether the entry has an `exclude_re`. -/
structure License where
  name : String
  hasExclude : Bool
  deriving DecidableEq, Repr

/-- `license_map`, src/licenses.c:12-734, in order (names from src/licenses.h).
Simplified: URLs, nice names and the expressions themselves are left out. -/
def licenseMap : List License := [
  ⟨"academic", false⟩,
  ⟨"adaptive", false⟩,
  ⟨"affero", false⟩,
  ⟨"apache", false⟩,
  ⟨"apache_2", false⟩,
  ⟨"apple_open_source", false⟩,
  ⟨"artistic", false⟩,
  ⟨"attribution_assurance", false⟩,
  ⟨"boost", false⟩,
  ⟨"bsd", false⟩,
  ⟨"cecill", false⟩,
  ⟨"cecill_b", false⟩,
  ⟨"cecill_c", false⟩,
  ⟨"computer_associates_trusted", false⟩,
  ⟨"common_development_and_distribution", false⟩,
  ⟨"common_public", false⟩,
  ⟨"cua_office", false⟩,
  ⟨"eu_datagrid", false⟩,
  ⟨"eclipse", false⟩,
  ⟨"educational", false⟩,
  ⟨"eiffel", false⟩,
  ⟨"eiffel_2", false⟩,
  ⟨"entessa", false⟩,
  ⟨"fair", false⟩,
  ⟨"frameworx", false⟩,
  ⟨"gpl3_or_later", false⟩,
  ⟨"gpl3", true⟩,
  ⟨"lgpl3", false⟩,
  ⟨"gpl", false⟩,
  ⟨"lgpl", false⟩,
  ⟨"historical", false⟩,
  ⟨"i9_license", false⟩,
  ⟨"ibm_public", false⟩,
  ⟨"intel_open_source", false⟩,
  ⟨"jabber_open_source", false⟩,
  ⟨"lucent_plan9", false⟩,
  ⟨"lucent_public", false⟩,
  ⟨"mit", false⟩,
  ⟨"mitre", false⟩,
  ⟨"motosoto", false⟩,
  ⟨"mozilla_public_1", false⟩,
  ⟨"mozilla_public_1_1", false⟩,
  ⟨"nasa_open", false⟩,
  ⟨"naumen", false⟩,
  ⟨"nethack", false⟩,
  ⟨"nokia_open_source", false⟩,
  ⟨"oclc_research", false⟩,
  ⟨"open_group_test", false⟩,
  ⟨"open_software", false⟩,
  ⟨"php_license", false⟩,
  ⟨"python_license", false⟩,
  ⟨"python_software_foundation", false⟩,
  ⟨"qt_public", false⟩,
  ⟨"realnetworks_public_source", false⟩,
  ⟨"reciprocal_public", false⟩,
  ⟨"ricoh_source", false⟩,
  ⟨"sleepycat", false⟩,
  ⟨"sugarcrm_1_1_3", false⟩,
  ⟨"sun_industry_standards", false⟩,
  ⟨"sun_public", false⟩,
  ⟨"sybase_open_watcom", false⟩,
  ⟨"u_of_i_ncsa", false⟩,
  ⟨"vovida_software", false⟩,
  ⟨"w3c", false⟩,
  ⟨"wx_windows", false⟩,
  ⟨"x_net", false⟩,
  ⟨"zope", false⟩,
  ⟨"zlib_libpng", false⟩,
  ⟨"apache_ish", false⟩,
  ⟨"bsd_ish", true⟩,
  ⟨"bsd_2clause_ish", true⟩,
  ⟨"wtfpl_2", false⟩
]

/-- The PCRE engine with the compiled expressions of `compile_regexps`,
src/licenses.c:738-760: `find j text` is what `pcre_exec` reports for the `re` of
entry `j` (start and end of the first match), `excluded j text` says whether the
`exclude_re` of entry `j` matches. -/
structure Engine where
  find : Nat → Bytes → Option (Nat × Nat)
  excluded : Nat → Bytes → Bool

/-! ### Normalising the comments -/

/-- `ispunct` in the C locale. Simplified: for bytes above 127 `ispunct(*p)` is called
with a negative `int`, which the C standard leaves undefined; the C library used
by the project answers false, and so does the model. -/
def ispunct (b : Byte) : Bool :=
  (33 ≤ b && b ≤ 47) || (58 ≤ b && b ≤ 64) || (91 ≤ b && b ≤ 96) || (123 ≤ b && b ≤ 126)

/-- The condition of the first inner loop, src/licenses.c:815. -/
def isLead (b : Byte) : Bool := b == 32 || b == 9 || ispunct b

/-- `*p == '\r' || *p == '\n'`, src/licenses.c:820. -/
def isNl (b : Byte) : Bool := b == 13 || b == 10

/-- `while (p < p_max && *p != '\r' && *p != '\n' && q < q_max) *q++ = *p++;`,
src/licenses.c:817-818.  The pointer `p` is the rest of the C string, `q` is an
offset into the allocation `mem`, `q_max` the offset of its end. -/
def copyLine (qmax : Nat) : Bytes → Bytes → Nat → Option (Bytes × Bytes × Nat)
  | [], mem, q => some ([], mem, q)
  | b :: p, mem, q =>
    if b ≠ 13 ∧ b ≠ 10 ∧ q < qmax then
      (store mem q b).bind fun mem' => copyLine qmax p mem' (q + 1)
    else some (b :: p, mem, q)

/-- The outer loop, src/licenses.c:813-823.  The first argument bounds the number of
iterations; running out of it would mean that the loop does not end. -/
def stripLoop (qmax : Nat) : Nat → Bytes → Bytes → Nat → Option (Bytes × Nat)
  | 0, _, _, _ => none
  | fuel + 1, p, mem, q =>
    if p ≠ [] ∧ q < qmax then
      (copyLine qmax (p.dropWhile isLead) mem q).bind fun (p1, mem1, q1) =>
        let p2 := p1.dropWhile isNl
        if q1 < qmax then
          (store mem1 q1 32).bind fun mem2 => stripLoop qmax fuel p2 mem2 (q1 + 1)
        else stripLoop qmax fuel p2 mem1 q1
    else some (mem, q)

/-- The normalised text of a comments buffer, src/licenses.c:799-824: what `pcre_exec`
is given, the first `q - buffer` bytes. `comments` is the buffer of the parsed
language, `junk` the content of fresh memory. -/
def normalise (junk : Byte) (comments : Bytes) : Option Bytes :=
  let s := cstr comments
  (stripLoop (s.length + 1) (s.length + 1) s (List.replicate (s.length + 1) junk) 0).bind
    fun (mem, q) =>
      if q < s.length + 1 then (store mem q 0).map fun mem' => mem'.take q
      else some (mem.take q)

/-! ### Matching -/

/-- `pcre_exec` on entry `j` and the exclusion test, src/licenses.c:829-836. -/
def matchOf (rx : Engine) (j : Nat) (lic : License) (buf : Bytes) : Option (Nat × Nat) :=
  match rx.find j buf with
  | none => none
  | some (m0, m1) =>
    if lic.hasExclude && rx.excluded j ((buf.drop m0).take (m1 - m0)) then none
    else some (m0, m1)

/-- The two arrays `potential_licenses_s` and `potential_licenses_e`, zipped. -/
abbrev Potential := List (Int × Int)

/-- The inner loop over `k`, src/licenses.c:839-854: called with the number of
iterations left and `k`. An access outside the arrays gives `none`. -/
def contains (j : Nat) (m0 m1 : Int) : Nat → Nat → Potential → Option Potential
  | 0, _, ps => some ps
  | n + 1, k, ps =>
    (ps[k]?).bind fun (sk, ek) =>
      (if (sk < m0 ∧ ek ≥ m1) ∨ (sk ≤ m0 ∧ ek > m1) then put ps j (-1, -1)
       else some ps).bind fun ps1 =>
      (if (m0 < sk ∧ m1 ≥ ek) ∨ (m0 ≤ sk ∧ m1 > ek) then put ps1 k (-1, -1)
       else some ps1).bind fun ps2 =>
      contains j m0 m1 n (k + 1) ps2

/-- The loop over the license table, src/licenses.c:826-856, from entry `j` on. -/
def matchLoop (rx : Engine) (buf : Bytes) : Nat → List License → Potential → Option Potential
  | _, [], ps => some ps
  | j, lic :: rest, ps =>
    (put ps j (-1, -1)).bind fun ps1 =>
      match matchOf rx j lic buf with
      | none => matchLoop rx buf (j + 1) rest ps1
      | some (m0, m1) =>
        (put ps1 j ((m0 : Int), (m1 : Int))).bind fun ps2 =>
          (contains j m0 m1 j 0 ps2).bind fun ps3 => matchLoop rx buf (j + 1) rest ps3

/-- The loop over the parsed languages, src/licenses.c:797-858. -/
def languageLoop (rx : Engine) (junk : Byte) (map : List License) :
    List ParsedLanguage → Potential → Option Potential
  | [], ps => some ps
  | pl :: rest, ps =>
    (normalise junk pl.comments.mem).bind fun buf =>
      (matchLoop rx buf 0 map ps).bind fun ps' => languageLoop rx junk map rest ps'

/-- `OVERRIDE_LICENSE(l, with)` for the entry named `name`, src/licenses.c:766-776. -/
def overrides (map : List License) (ps : Potential) (l withName name : String) : Bool :=
  name == l && (map.zip ps).any fun (lic, se) => decide (se.1 > -1) && lic.name == withName

/-- The four uses of the macro, src/licenses.c:864-867. -/
def overridden (map : List License) (ps : Potential) (name : String) : Bool :=
  overrides map ps "gpl" "gpl3" name ||
  overrides map ps "gpl" "gpl3_or_later" name ||
  overrides map ps "gpl3" "gpl3_or_later" name ||
  overrides map ps "bsd_2clause_ish" "bsd_ish" name

/-- The loop that builds the list, src/licenses.c:861-882. A license is represented by
its name. -/
def collect (map : List License) (ps : Potential) : List String :=
  ((map.zip ps).filter fun (lic, se) =>
    decide (se.1 > -1) && !overridden map ps lic.name).map fun (lic, _) => lic.name

/-- `ohcount_detect_license` on the parsed languages of a file,
src/licenses.c:778-886. `junk` is the content of the two uninitialised arrays. -/
def detectLicense (rx : Engine) (junk : Byte) (junkPs : Int × Int) (map : List License)
    (pls : List ParsedLanguage) : Option (List String) :=
  match pls with
  | [] => some []
  | _ => (languageLoop rx junk map pls (List.replicate map.length junkPs)).map (collect map)

end Ohcount.Licenses
