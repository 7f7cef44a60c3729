import Verif.ParserProps
import Verif.CSpec

/-!
What kind a line is reported as (C39, C55).  The specification is in CSpec.lean for C, and for 65 parsers in
Lexis.lean with the constructs of each language in LexisTable.lean.
-/

namespace Ohcount.Ragel
open Gram Cert

/-! ### C55 -/

/-- For every parser in `classified` and every text that is lexically correct for its language: there is one report for
each line, in order, with the kind that the specification gives. -/
theorem C55_kinds (P : Parser) (L : Lexis) (hP : (P, L) ∈ classified) (l : Leftover) (buf : List Byte) (hb : Plain buf)
    (hw : L.WellFormed buf) : Each ForLine (L.lines buf) (lineReports P.line.machine l buf) := by
  obtain ⟨V, S, B, C, hV⟩ := classifiedAll (P, L) hP
  exact lines_lex S B C hV l hb hw

theorem Each.kinds : ∀ {x : List (Nat × Nat × Kind)} {r : List Rep}, Each ForLine x r → r.map (·.kind) = x.map (·.2.2)
  | _, _, .nil => rfl
  | _, _, .cons h t => by rw [List.map_cons, List.map_cons, t.kinds, h.1]

/-- So the numbers of code, comment and blank lines are the right ones. -/
theorem C55_counts (P : Parser) (L : Lexis) (hP : (P, L) ∈ classified) (l : Leftover) (buf : List Byte) (hb : Plain buf)
    (hw : L.WellFormed buf) (k : Kind) :
    ((lineReports P.line.machine l buf).map (·.kind)).count k = ((L.lines buf).map (·.2.2)).count k := by
  rw [(C55_kinds P L hP l buf hb hw).kinds]

/-- A shell script with a string over two lines. -/
example : (parse_shell, LexisTable.shell_line) ∈ classified ∧ Plain (bytes "# a\necho 'b # c\n d' \n\n") ∧
    LexisTable.shell_line.WellFormed (bytes "# a\necho 'b # c\n d' \n\n") ∧
    LexisTable.shell_line.lines (bytes "# a\necho 'b # c\n d' \n\n") = [(0, 4, .lcomment), (4, 16, .lcode), (16, 21, .lcode), (21, 22, .lblank)] := by
  refine ⟨by simp [classified], by decide, by decide +kernel, by decide +kernel⟩

/-- A quote that is not closed on its line is code in Java; a Pascal comment over two lines is code after its opening
delimiter. -/
example : LexisTable.java_line.lines (bytes "don't // x\n// don't\n") = [(0, 11, .lcode), (11, 20, .lcomment)] ∧
    LexisTable.pascal_line.lines (bytes "(*\nx *)\n") = [(0, 3, .lcomment), (3, 8, .lcode)] := by
  refine ⟨by decide +kernel, by decide +kernel⟩

/-! ### C39 -/

/-- The lines of a C source that a report is due for, with their kinds: all terminated ones, and the text after the last line
end if it has code or comment. -/
def cLines (buf : List Byte) : List (Nat × Nat × Kind) :=
  (terminated buf).map (fun x => (x.1, x.2, CSpec.lineKind buf x.1 x.2)) ++
  (let k := CSpec.lineKind buf (lastStart buf) buf.length
   if k = .lblank then [] else [(lastStart buf, buf.length, k)])

/-- For every C source with its comments and literals closed: one report for each line, code if the line has a
byte outside of comments that is not white space, else comment if it has a byte of a comment that is not white space, else blank. -/
theorem C39_c_lines (l : Leftover) (buf : List Byte) (hb : Plain buf) (hc : CSpec.Correct buf) :
    Each ForLine (cLines buf) (lineReports parse_c.line.machine l buf) := by
  obtain ⟨V, S, B, C, hV⟩ : Classified LexisTable.c_line_strict parse_c.line.machine := c_line_M_eq ▸ c_line_strict_classified
  have h := lines_lex S B C hV l hb (CSpec.all_eq buf hc).1
  have e : LexisTable.c_line_strict.lines buf = cLines buf := by
    unfold Lexis.lines cLines
    simp only [CSpec.lineKind_eq buf hc]
  rwa [e] at h

/-- The same for a caller of `ohcount_parse`. -/
theorem C39_parse (l : Leftover) (buf : List Byte) (hb : Plain buf) (hc : CSpec.Correct buf) :
    ∃ rs, ohcountParse "c" l buf = some rs ∧ rs.map (·.kind) = (cLines buf).map (·.2.2) ∧ ∀ r ∈ rs, r.lang = "c" := by
  have h1 : Tables.parsers.find? (fun x => x.1 == bytes "c") = some (bytes "c", "parse_c") := by decide +kernel
  have h2 : parsers.find? (fun P => P.name == "parse_c") = some parse_c := by rfl
  refine ⟨reports parse_c.lang parse_c.line.machine l buf, ?_, ?_, ?_⟩
  · unfold ohcountParse
    rw [h1]
    simp only [h2]
  · rw [← (C39_c_lines l buf hb hc).kinds]
    simp [reports]
  · intro r hr
    unfold reports at hr
    obtain ⟨_, _, rfl⟩ := List.mem_map.mp hr
    rfl

example : Plain (bytes "/* a\n\n * b */ x = \"/*\"; // '\n\t// y \\\n z\n\n   /* */\n'\\'' /") ∧
    CSpec.Correct (bytes "/* a\n\n * b */ x = \"/*\"; // '\n\t// y \\\n z\n\n   /* */\n'\\'' /") ∧
    (cLines (bytes "/* a\n\n * b */ x = \"/*\"; // '\n\t// y \\\n z\n\n   /* */\n'\\'' /")).map (·.2.2) =
      [.lcomment, .lblank, .lcode, .lcomment, .lcomment, .lblank, .lcomment, .lcode] := by
  refine ⟨by decide, by decide +kernel, by decide +kernel⟩

/-- Literals over several lines are excluded: the last line of this one is blank, although it has a quote. -/
theorem C39_negation_continued : lineReports parse_c.line.machine {} (bytes "x = \"a\\\n\"\n") = [⟨.lcode, 0, 8⟩, ⟨.lblank, 9, 10⟩] ∧
    ¬ CSpec.Correct (bytes "x = \"a\\\n\"\n") := by
  refine ⟨by decide +kernel, by decide +kernel⟩

end Ohcount.Ragel
