import Verif.Cert.Q
import Verif.ParserProps

/-!
C37: languages whose multi-line constructs are queued until their end is seen.  The specification is
`terminated` and `lastStart` of RagelLines.lean and `EndsLine` of RagelQueue.lean.
-/

namespace Ohcount.Ragel
open Gram Cert

/-- The full claim for one parser: every line has exactly one report that ends at its end, in order, and after those
at most one report, for the text after the last line end. -/
def C37_full (P : Parser) : Prop := ∀ l buf, Plain buf → EndsReported buf (lineReports P.line.machine l buf)

/-- cmake, crystal, grace, jam, limbo, ruby and shell: no string or comment, closed or not, makes a line end reported
twice or not at all.  Partial because the claim is false for the other three parsers with a queue
(`C37_negation_lua`, `C37_negation_powershell`, `C37_negation_php`). -/
theorem C37_ends_partial (P : Parser) (hP : P ∈ queued) : C37_full P := by
  intro l buf hb
  obtain ⟨st, ⟨C⟩⟩ := queued_cert P hP
  obtain ⟨S⟩ := safeAll P (queued_sub P hP)
  exact ends_exact S C l hb

theorem Each.map_eq {α β γ : Type} {R : α → β → Prop} {f : α → γ} {g : β → γ} (hi : ∀ a b, R a b → g b = f a) {l : List α} {r : List β}
    (h : Each R l r) : r.map g = l.map f := by
  induction h with
  | nil => rfl
  | cons h1 _ ih => simp [hi _ _ h1, ih]

/-- The ends of the reports are the line ends of the buffer, in order, and possibly the end of the buffer. -/
theorem C37_positions (P : Parser) (hP : P ∈ queued) (l : Leftover) (buf : List Byte) (hb : Plain buf) :
    (lineReports P.line.machine l buf).map (·.e) = lineEnds buf ∨
    (lineReports P.line.machine l buf).map (·.e) = lineEnds buf ++ [buf.length] ∧ lineEnd buf buf.length = false := by
  obtain ⟨main, rest, h, h1, h2⟩ := C37_ends_partial P hP l buf hb
  have hm : main.map (·.e) = lineEnds buf := by
    rw [← (C35_lines_tile buf).2]
    exact h1.map_eq fun _ _ h => h.1
  rw [h, List.map_append, hm]
  rcases h2 with rfl | ⟨r, rfl, h3⟩
  · left; simp
  · right
    refine ⟨by simp [h3.1], ?_⟩
    cases he : lineEnd buf buf.length with
    | false => rfl
    | true =>
      exfalso
      have hlast : lastStart buf = buf.length := by
        have hmem : lineEnds buf = endsTo buf (buf.length - 1) ++ [buf.length] := by
          cases hn : buf.length with
          | zero => rw [hn] at he; cases he
          | succ n =>
            unfold lineEnds endsTo
            rw [hn, List.range_succ, List.filter_append]
            rw [hn] at he
            simp [he]
        unfold lastStart
        rw [hmem]; simp
      have := h3.2.1
      have h4 := h3.2.2
      rw [h3.1] at h4
      rw [hlast] at this
      dsimp only at this h4
      omega

/-- The number of reports is the number of line ends, plus at most one. -/
theorem C37_count (P : Parser) (hP : P ∈ queued) (l : Leftover) (buf : List Byte) (hb : Plain buf) :
    (lineEnds buf).length ≤ (lineReports P.line.machine l buf).length ∧
    (lineReports P.line.machine l buf).length ≤ (lineEnds buf).length + 1 := by
  have h := C37_positions P hP l buf hb
  have hl : ((lineReports P.line.machine l buf).map (·.e)).length = (lineReports P.line.machine l buf).length := by simp
  rcases h with h | ⟨h, _⟩
  · rw [h] at hl; omega
  · rw [h] at hl; simp at hl; omega

-- A string that is not closed, over two lines, in Ruby: three lines, three reports.
example : parse_ruby ∈ queued := by simp [queued]
example : Plain (bytes "a = 'x\ny\n# z\n") := by decide +kernel
example : lineReports parse_ruby.line.machine {} (bytes "a = 'x\ny\n# z\n") =
    [⟨.lcode, 0, 7⟩, ⟨.lcode, 7, 9⟩, ⟨.lcomment, 9, 13⟩] := by decide +kernel
-- A string opened directly after one that was given up: the first report does not start where the line starts, but it
-- ends where the line ends.
example : lineReports parse_ruby.line.machine {} (bytes "a '\"\n\"\n") =
    [⟨.lcode, 2, 5⟩, ⟨.lcode, 5, 7⟩] := by decide +kernel

/-- Lua: a quote, a line end and a letter; the only line end is reported twice. -/
theorem C37_negation_lua : ¬ C37_full parse_lua := by
  intro h
  obtain ⟨main, rest, h1, h2, h3⟩ := h {} (bytes "'\nx") (by decide +kernel)
  have e1 : lineReports parse_lua.line.machine {} (bytes "'\nx") = [⟨.lcode, 0, 2⟩, ⟨.lblank, 1, 2⟩, ⟨.lcode, 2, 3⟩] := by decide +kernel
  have e2 : (terminated (bytes "'\nx")).length = 1 := by decide +kernel
  have hl := congrArg List.length h1
  rw [e1, List.length_append, ← h2.length, e2] at hl
  rcases h3 with rfl | ⟨r, rfl, _⟩ <;> simp at hl

/-- PowerShell: a quote that is not closed before a block comment; the line end in the comment is queued and lost. -/
theorem C37_negation_powershell : ¬ C37_full parse_powershell := by
  intro h
  obtain ⟨main, rest, h1, h2, h3⟩ := h {} (bytes "'<#\n#>\n") (by decide +kernel)
  have e1 : (lineReports parse_powershell.line.machine {} (bytes "'<#\n#>\n")).length = 1 := by decide +kernel
  have e2 : (terminated (bytes "'<#\n#>\n")).length = 2 := by decide +kernel
  have hl := congrArg List.length h1
  rw [e1, List.length_append, ← h2.length, e2] at hl
  omega

/-- PHP: the same with its block comments. -/
theorem C37_negation_php : ¬ C37_full parse_php := by
  intro h
  obtain ⟨main, rest, h1, h2, h3⟩ := h {} (bytes "'/*\n*/\n") (by decide +kernel)
  have e1 : (lineReports parse_php.line.machine {} (bytes "'/*\n*/\n")).length = 1 := by decide +kernel
  have e2 : (terminated (bytes "'/*\n*/\n")).length = 2 := by decide +kernel
  have hl := congrArg List.length h1
  rw [e1, List.length_append, ← h2.length, e2] at hl
  omega

end Ohcount.Ragel
