import Verif.Cert.EAll
import Verif.Cert.EN
import Verif.ParserProps

/-!
Properties of the parsers with embedded languages: C62 to C64.
-/

namespace Ohcount.Ragel
open Ohcount.Gram Ohcount.Cert

/-- The line callbacks of `parse_<lang>`, with the names of the languages. -/
def EParser.named (P : EParser) (l : ELeft) (buf : List Byte) : List Report :=
  (P.reports l buf).map fun r => ⟨P.langs.getD r.lang "", r.kind, r.s, r.e⟩

/-- The same with the callbacks that are computed from a NULL `line_start` (see C64): their start, the difference of NULL and
the begin of the buffer, is not defined.  If there is any, one is added that starts before the buffer; simplified: it comes
after the others. -/
def EParser.callbacks (P : EParser) (l : ELeft) (buf : List Byte) : List Report :=
  P.named l buf ++ if (P.final P.multi l buf).d.ub then [⟨P.langs.getD 0 "", .lcode, -1, 0⟩] else []

/-- The parser with embedded languages that `ohcount_parse` finds for a language, src/parser.c:16-20. -/
def embParserOf (lang : String) : Option EParser :=
  match Tables.parsers.find? fun x => x.1 == bytes lang with
  | none => none
  | some x => embParsers.find? fun P => P.name == x.2

/-- `ohcount_parse`, src/parser.c:12-31, in counting mode, for the languages whose parser is one of those with embedded
languages (compare `ohcountParse`, for the other parsers), without the callbacks computed from a NULL pointer. -/
def ohcountParseEmb (lang : String) (l : ELeft) (buf : List Byte) : Option (List Report) :=
  (embParserOf lang).map fun P => P.named l buf

theorem embParserOf_mem {lang : String} {P : EParser} (h : embParserOf lang = some P) : P ∈ embParsers := by
  unfold embParserOf at h
  split at h
  · cases h
  · exact List.mem_of_find?_eq_some h

theorem embLangs_pos : ∀ P ∈ embParsers, 0 < P.langs.length := by decide +kernel

theorem lines_of_checked {P : EParser} {strict tag : Bool} (hP : 0 < P.langs.length) (h : Checked P P.line strict tag)
    (l : ELeft) (buf : List Byte) (hT : tag = true → TagsClosed buf) :
    P.multi.step buf (eexec P.multi P.line l buf) = none ∧ (eexec P.multi P.line l buf).bad = false ∧
    (P.reports l buf).length = (P.final P.multi l buf).d.out.length ∧
    (∀ r ∈ P.reports l buf, r.lang < P.langs.length ∧ r.s < r.e ∧ r.e ≤ buf.length) ∧
    (strict = true → (P.final P.multi l buf).d.ub = false) := by
  obtain ⟨o, h1, h2, h3, h4, h5⟩ := h.run l buf hT
  have g := h5.last (by rw [h1]; exact hP)
  have hp := pairUp_spec g.l.out.1 g.l.out.2 g.d.out
  rw [h1] at hp
  exact ⟨h3, h4, hp.1, hp.2, fun hs => g.st (h2 hs)⟩

theorem entities_of_checked {P : EParser} {strict tag : Bool} (h : Checked P P.entity strict tag)
    (l : ELeft) (buf : List Byte) (hT : tag = true → TagsClosed buf) :
    P.multi.step buf (eexec P.multi P.entity l buf) = none ∧ (eexec P.multi P.entity l buf).bad = false ∧
    (P.entityReports l buf).length = (eexec P.multi P.entity l buf).x.d.ents.length ∧
    (∀ r ∈ P.entityReports l buf, r.1 < P.langs.length ∧ r.2.2.1 < r.2.2.2 ∧ r.2.2.2 ≤ buf.length) ∧
    (strict = true → (eexec P.multi P.entity l buf).x.d.ub = false) := by
  obtain ⟨o, h1, h2, h3, h4, h5⟩ := h.run l buf hT
  obtain ⟨e1, e2, e3⟩ := h5.l.ents
  refine ⟨h3, h4, ?_, ?_, fun hs => h5.st (h2 hs)⟩
  · simp [EParser.entityReports, e1]
  · intro r hr
    have hr : r ∈ List.zip (eexec P.multi P.entity l buf).x.elangs (eexec P.multi P.entity l buf).x.d.ents := hr
    have := List.of_mem_zip (a := r.1) (b := r.2) hr
    exact ⟨h1 ▸ e2 _ this.1, e3 _ this.2⟩

/-! ### C62 -/

/-- For every buffer, and whatever the variables that are not initialised contain: the parser stops by itself, its stack of
five return addresses is neither exceeded nor popped when empty, and every line callback whose start is not computed from a
NULL pointer (see C64) has `0 <= start < end <= length`. -/
theorem C62_lines (P : EParser) (hP : P ∈ embParsers) (l : ELeft) (buf : List Byte) :
    P.multi.step buf (eexec P.multi P.line l buf) = none ∧ (eexec P.multi P.line l buf).bad = false ∧
    ∀ r ∈ P.named l buf, 0 ≤ r.s ∧ r.s < r.e ∧ r.e ≤ buf.length := by
  obtain ⟨h1, h2, _, h3, _⟩ := lines_of_checked (embLangs_pos P hP) (embLineAll P hP) l buf (fun h => nomatch h)
  refine ⟨h1, h2, fun r hr => ?_⟩
  obtain ⟨r', hr', rfl⟩ := List.mem_map.mp hr
  have := h3 r' hr'
  dsimp only
  omega

/-- The same for entities. -/
theorem C62_entities (P : EParser) (hP : P ∈ embParsers) (l : ELeft) (buf : List Byte) :
    P.multi.step buf (eexec P.multi P.entity l buf) = none ∧ (eexec P.multi P.entity l buf).bad = false ∧
    ∀ r ∈ P.entityReports l buf, r.2.2.1 < r.2.2.2 ∧ r.2.2.2 ≤ buf.length := by
  obtain ⟨h1, h2, _, h3, _⟩ := entities_of_checked (embEntityAll P hP) l buf (fun h => nomatch h)
  exact ⟨h1, h2, fun r hr => (h3 r hr).2⟩

/-- The same as seen by the caller of `ohcount_parse`. -/
theorem C62_parse (lang : String) (l : ELeft) (buf : List Byte) (rs : List Report)
    (h : ohcountParseEmb lang l buf = some rs) : ∀ r ∈ rs, 0 ≤ r.s ∧ r.s < r.e ∧ r.e ≤ buf.length := by
  unfold ohcountParseEmb at h
  cases hP : embParserOf lang with
  | none => rw [hP] at h; cases h
  | some P =>
    rw [hP] at h
    simp only [Option.map_some, Option.some.injEq] at h
    subst h
    exact (C62_lines P (embParserOf_mem hP) l buf).2.2

/-- A page with a style sheet and a script. -/
example : ohcountParseEmb "html" {} (bytes "<p>\n<style type=\"text/css\" >\nb {}\n</style>\n<script type=\"text/javascript\" >\n// a\n\n</script>\n<!-- c -->\n") =
    some [⟨"html", .lcode, 0, 4⟩, ⟨"html", .lcode, 4, 29⟩, ⟨"css", .lcode, 29, 34⟩, ⟨"html", .lcode, 34, 43⟩, ⟨"html", .lcode, 43, 76⟩,
      ⟨"javascript", .lcomment, 76, 81⟩, ⟨"javascript", .lblank, 81, 82⟩, ⟨"html", .lcode, 82, 92⟩, ⟨"html", .lcomment, 92, 103⟩] := by
  decide +kernel

/-! ### C63 -/

/-- Every line callback names the language of the file or one of the languages embedded in it. -/
theorem C63_lines (P : EParser) (hP : P ∈ embParsers) (l : ELeft) (buf : List Byte) : ∀ r ∈ P.named l buf, r.lang ∈ P.langs := by
  obtain ⟨_, _, _, h3, _⟩ := lines_of_checked (embLangs_pos P hP) (embLineAll P hP) l buf (fun h => nomatch h)
  intro r hr
  obtain ⟨r', hr', rfl⟩ := List.mem_map.mp hr
  have := (h3 r' hr').1
  dsimp only
  rw [List.getD_eq_getElem?_getD, List.getElem?_eq_getElem this]
  exact List.getElem_mem this

/-- So does every entity callback. -/
theorem C63_entities (P : EParser) (hP : P ∈ embParsers) (l : ELeft) (buf : List Byte) :
    ∀ r ∈ P.entityReports l buf, P.langs.getD r.1 "" ∈ P.langs := by
  obtain ⟨_, _, _, h3, _⟩ := entities_of_checked (embEntityAll P hP) l buf (fun h => nomatch h)
  intro r hr
  have := (h3 r hr).1
  rw [List.getD_eq_getElem?_getD, List.getElem?_eq_getElem this]
  exact List.getElem_mem this

/-- Which languages those are. -/
theorem C63_which : embParsers.map (fun P => (P.name, P.langs)) = [
    ("parse_html", ["html", "css", "javascript"]),
    ("parse_mxml", ["mxml", "css", "actionscript"]),
    ("parse_nix", ["nix", "shell"]),
    ("parse_coffeescript", ["coffeescript", "javascript"]),
    ("parse_mptex", ["metapost", "tex"]),
    ("parse_jsp", ["html", "css", "javascript", "java"]),
    ("parse_phtml", ["html", "css", "javascript", "php"]),
    ("parse_cshtml", ["html", "css", "javascript", "clearsilver"]),
    ("parse_cs_aspx", ["html", "css", "javascript", "csharp"]),
    ("parse_rhtml", ["html", "css", "javascript", "ruby"]),
    ("parse_vb_aspx", ["html", "css", "javascript", "visualbasic"]),
    ("parse_perl", ["perl"]),
    ("parse_haml", ["haml", "ruby"])] := by decide +kernel

/-- All are languages of the language table, except CoffeeScript. -/
theorem C63_known : ∀ P ∈ embParsers, ∀ x ∈ P.langs, (∃ y ∈ Tables.languages, y.1 = bytes x) ∨ x = "coffeescript" := by decide +kernel

/-- Every entry of the parser table names a modelled parser. -/
theorem C63_table : ∀ x ∈ Tables.parsers, (∃ P ∈ parsers, P.name = x.2) ∨ (∃ P ∈ embParsers, P.name = x.2) := by decide +kernel

/-! ### C64 -/

/-- The property in full: no line callback is computed from a NULL `line_start`. -/
def C64_full : Prop := ∀ P ∈ embParsers, ∀ (l : ELeft) (buf : List Byte), (P.final P.multi l buf).d.ub = false

/-- The parsers of pages with style sheets and scripts. -/
def pageNames : List String := ["parse_html", "parse_jsp", "parse_phtml", "parse_cshtml", "parse_cs_aspx", "parse_rhtml", "parse_vb_aspx"]

theorem not_page (P : EParser) (hP : P ∈ embParsers) (h : P.name ∉ pageNames) : P ∈ embStrictLine ∨ P = Emb.Haml.parser := by
  simp only [embParsers, List.mem_cons, List.not_mem_nil, or_false] at hP
  rcases hP with rfl | rfl | rfl | rfl | rfl | rfl | rfl | rfl | rfl | rfl | rfl | rfl | rfl
  iterate 13 first
    | exact absurd (by decide) h
    | exact .inr rfl
    | exact .inl (by simp [embStrictLine])

/-- It holds for all the others: MXML, Nix, CoffeeScript, MetaPost with TeX, Perl and Haml. -/
theorem C64_no_null_partial (P : EParser) (hP : P ∈ embParsers) (h : P.name ∉ pageNames) (l : ELeft) (buf : List Byte) :
    (P.final P.multi l buf).d.ub = false := by
  rcases not_page P hP h with hs | rfl
  · exact (lines_of_checked (embLangs_pos P hP) (embStrictLineAll P hs) l buf (fun h => nomatch h)).2.2.2.2 rfl
  · exact haml_not_null l buf

example : (embParsers.filter fun P => !pageNames.contains P.name).map (·.name) =
    ["parse_mxml", "parse_nix", "parse_coffeescript", "parse_mptex", "parse_perl", "parse_haml"] := by decide +kernel

/-- For HTML it holds if no end tag contains a line end. -/
theorem C64_html_partial (l : ELeft) (buf : List Byte) (h : TagsClosed buf) :
    (Emb.Html.parser.final Emb.Html.parser.multi l buf).d.ub = false :=
  (lines_of_checked (by decide) (embTaggedLineAll Emb.Html.parser (by simp [embTaggedLine])) l buf (fun _ => h)).2.2.2.2 rfl

/-- `TagsClosed` as a program. -/
def tagsClosed (buf : List Byte) : Bool :=
  (List.range buf.length).all fun i => (List.range buf.length).all fun j =>
    !(buf[i]? == some 60 && buf[i + 1]? == some 47 && decide (i + 2 ≤ j) &&
      (buf[j]? == some 10 || buf[j]? == some 12 || buf[j]? == some 13)) ||
    (List.range j).any fun k => decide (i + 2 ≤ k) && buf[k]? == some 62

theorem tagsClosed_spec {buf : List Byte} (h : tagsClosed buf = true) : TagsClosed buf := by
  intro i j h1 h2 h3 h4
  have lt : ∀ (k : Nat) (b : Byte), buf[k]? = some b → k < buf.length := fun k b hk => (List.getElem?_eq_some_iff.mp hk).1
  have hi := lt i _ h1
  have hj : j < buf.length := by rcases h4 with h4 | h4 | h4 <;> exact lt j _ h4
  have := List.all_eq_true.mp (List.all_eq_true.mp h i (List.mem_range.mpr hi)) j (List.mem_range.mpr hj)
  rw [h1, h2] at this
  have hnl : (buf[j]? == some 10 || buf[j]? == some 12 || buf[j]? == some 13) = true := by
    rcases h4 with h4 | h4 | h4 <;> rw [h4] <;> decide
  rw [hnl, show decide (i + 2 ≤ j) = true by simpa using h3] at this
  simp only [BEq.rfl, Bool.and_self, Bool.not_true, Bool.false_or, List.any_eq_true, List.mem_range, Bool.and_eq_true,
    decide_eq_true_eq, beq_iff_eq] at this
  obtain ⟨k, k1, k2, k3⟩ := this
  exact ⟨k, k2, k1, k3⟩

example : TagsClosed (bytes "<style type=\"text/css\" >\nb {}\n</style >\n</p>\n") := tagsClosed_spec (by decide +kernel)

/-- An end tag that goes on in the next line. -/
def splitTag : List Byte := bytes "<style type=\"text/css\" >\n</style\n>\n"

/-- Without that it does not, and so it is for every parser of pages: after an end tag that goes on in the next line. -/
theorem C64_negation_page (P : EParser) (hP : P ∈ embParsers) (h : P.name ∈ pageNames) :
    (P.final P.multi {} splitTag).d.ub = true := by
  have : ∀ P ∈ embParsers, pageNames.contains P.name = true → (P.final P.multi {} splitTag).d.ub = true := by decide +kernel
  exact this P hP (List.contains_iff_mem.mpr h)

/-- Nor does it in PHP pages, where a question mark ends the PHP code, also if every tag is closed in its line. -/
theorem C64_negation_php : (Emb.Phphtml.parser.final Emb.Phphtml.parser.multi {} (bytes "\"<?php\n?\n\"\n")).d.ub = true ∧
    TagsClosed (bytes "\"<?php\n?\n\"\n") :=
  ⟨by decide +kernel, tagsClosed_spec (by decide +kernel)⟩

theorem C64_negation : ¬ C64_full := fun h =>
  absurd ((C64_negation_page Emb.Html.parser (List.mem_of_getElem? (i := 0) rfl) (by decide)).symm.trans
    (h _ (List.mem_of_getElem? (i := 0) rfl) {} _)) (by decide)

end Ohcount.Ragel
