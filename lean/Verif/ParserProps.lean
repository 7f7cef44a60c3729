import Verif.Cert.All
import Verif.Tables
import Verif.RagelHistory

/-!
Properties of the line parsers (C33-C36, C38, C41).  `Gram.parsers` lists the 111 parse
functions that are modelled; `lineReports P.line.machine l buf` are the line callbacks that
`P` makes for the buffer `buf` when the static variables hold the values `l` left over from
earlier parses.  The specification of lines (`lineEnd`, `terminated`, `dueLines`,
`blankLine`) is in RagelLines.lean and mentions no scanner.
-/

namespace Ohcount.Ragel
open Gram Cert

/-- A text as bytes. -/
def bytes (s : String) : List Byte := s.toList.map fun c => UInt8.ofNat c.toNat

/-! ### `ohcount_parse` -/

/-- `ohcount_parse`, src/parser.c:12-31, in counting mode: the parser is looked up by the name of the
language in the table of src/hash/parsers.gperf.  `none`: the table has no entry for the
language (`ohcount_parse` returns 0), or its parser is one of the 13 with embedded
languages or actions of their own (`ohcountParseEmb`). -/
def ohcountParse (lang : String) (l : Leftover) (buf : List Byte) : Option (List Report) :=
  match Tables.parsers.find? fun x => x.1 == bytes lang with
  | none => none
  | some x => match parsers.find? fun P => P.name == x.2 with
    | none => none
    | some P => some (reports P.lang P.line.machine l buf)

/-! ### C33 -/

/-- Every line callback of every modelled parser has `0 <= start < end <= length`. -/
theorem C33_ranges (P : Parser) (hP : P ∈ parsers) (l : Leftover) (buf : List Byte) :
    ∀ r ∈ lineReports P.line.machine l buf, r.s < r.e ∧ r.e ≤ buf.length := by
  obtain ⟨S⟩ := safeAll P hP
  exact (lineReports_ok S l buf).1

/-- No callback position is computed from a NULL `line_start`. -/
theorem C33_no_null (P : Parser) (hP : P ∈ parsers) (l : Leftover) (buf : List Byte) :
    ((exec P.line.machine l buf).d.processLastLine buf.length).ub = false := by
  obtain ⟨S⟩ := safeAll P hP
  exact (lineReports_ok S l buf).2

/-- The same as seen by the caller of `ohcount_parse`. -/
theorem C33_parse (lang : String) (l : Leftover) (buf : List Byte) (rs : List Report)
    (h : ohcountParse lang l buf = some rs) : ∀ r ∈ rs, 0 ≤ r.s ∧ r.s < r.e ∧ r.e ≤ buf.length := by
  unfold ohcountParse at h
  split at h
  · cases h
  · split at h
    · cases h
    · rename_i P hP
      simp only [Option.some.injEq] at h
      subst h
      intro r hr
      unfold reports at hr
      obtain ⟨r', hr', rfl⟩ := List.mem_map.mp hr
      have := C33_ranges P (List.mem_of_find?_eq_some hP) l buf r' hr'
      dsimp only
      omega

/-! ### C34 -/

/-- The language named by the callbacks is the language asked for. -/
theorem C34_language (lang : String) (l : Leftover) (buf : List Byte) (rs : List Report)
    (h : ohcountParse lang l buf = some rs) : ∀ r ∈ rs, bytes r.lang = bytes lang := by
  have key : ∀ x ∈ Tables.parsers, ∀ P ∈ parsers, P.name = x.2 → bytes P.lang = x.1 := by decide +kernel
  unfold ohcountParse at h
  split at h
  · cases h
  · rename_i x hx
    split at h
    · cases h
    · rename_i P hP
      simp only [Option.some.injEq] at h
      subst h
      intro r hr
      unfold reports at hr
      obtain ⟨r', hr', rfl⟩ := List.mem_map.mp hr
      have h1 := List.find?_some hP
      have h2 := List.find?_some hx
      rw [key x (List.mem_of_find?_eq_some hx) P (List.mem_of_find?_eq_some hP) (by simpa using h1)]
      simpa using h2

/-- Every entry of the parser table, but two, names a language of the language table, and all name one
of the 111 modelled parsers or of the 13 others. -/
theorem C34_table : ∀ x ∈ Tables.parsers,
    ((∃ y ∈ Tables.languages, y.1 = x.1) ∨ x.2 ∈ ["parse_coffeescript", "parse_tex_dtx"]) ∧
    ((∃ P ∈ parsers, P.name = x.2) ∨ x.2 ∈ ["parse_cshtml", "parse_coffeescript", "parse_cs_aspx", "parse_haml", "parse_html",
      "parse_jsp", "parse_mptex", "parse_mxml", "parse_nix", "parse_perl", "parse_phtml", "parse_rhtml", "parse_vb_aspx"]) := by
  decide +kernel

/-- The hypothesis of `C33_parse` and `C34_language` is met, with callbacks of all kinds. -/
example : ohcountParse "ada" {} (bytes "-- a\n\nx;\n") =
    some [⟨"ada", .lcomment, 0, 5⟩, ⟨"ada", .lblank, 5, 6⟩, ⟨"ada", .lcode, 6, 9⟩] := by decide +kernel

/-! ### C35, C36: languages without constructs that are given up over a line end -/

/-- The report `r` is for the line `x`: it ends where the line ends and starts where the line starts; the
report of a blank line may start later in the line. -/
def SameLine (x : Nat × Nat) (r : Rep) : Prop :=
  r.e = x.2 ∧ x.1 ≤ r.s ∧ r.s < r.e ∧ (r.kind ≠ .lblank → r.s = x.1)

/-- Each line is reported exactly once, in order, with its extent; the text after the last line
end is reported iff it is not blank. -/
theorem C35_one_report_per_line (P : Parser) (hP : P ∈ lineOriented) (l : Leftover) (buf : List Byte) (hb : Plain buf) :
    Each SameLine (dueLines buf) (lineReports P.line.machine l buf) := by
  obtain ⟨C⟩ := lineOriented_cert P hP
  obtain ⟨S⟩ := safeAll P (lineOriented_sub P hP)
  have h := (lines_exact S C l hb ⟨by simp, by simp⟩).due
  exact h.imp fun _ _ h => ⟨h.1, h.2.1, h.2.2.1, h.2.2.2.1⟩

/-- The number of reports is the number of lines. -/
theorem C35_count (P : Parser) (hP : P ∈ lineOriented) (l : Leftover) (buf : List Byte) (hb : Plain buf) :
    (lineReports P.line.machine l buf).length = (dueLines buf).length :=
  (C35_one_report_per_line P hP l buf hb).length.symm

/-- Every byte of a file whose last line is not blank, or is terminated, is in exactly one line: each line starts
where the one before ends. -/
theorem C35_lines_tile (buf : List Byte) : (terminated buf).map (·.1) = ((0 :: lineEnds buf).take (lineEnds buf).length) ∧
    (terminated buf).map (·.2) = lineEnds buf := by
  unfold terminated
  generalize lineEnds buf = l
  constructor
  · generalize (0 : Nat) = z
    induction l generalizing z with
    | nil => rfl
    | cons a r ih => simp [ih a]
  · generalize (0 : Nat) = z
    induction l generalizing z with
    | nil => rfl
    | cons a r ih => simp [ih a]

/-- The exact extent is not reported for a blank line: leading spaces are left out. -/
theorem C35_negation : ∃ buf, Plain buf ∧
    ¬ Each (fun (x : Nat × Nat) (r : Rep) => r.s = x.1 ∧ r.e = x.2) (dueLines buf) (lineReports parse_ada.line.machine {} buf) := by
  refine ⟨bytes "  \n", by decide, ?_⟩
  have h1 : lineReports parse_ada.line.machine {} (bytes "  \n") = [⟨.lblank, 2, 3⟩] := by decide +kernel
  have h2 : dueLines (bytes "  \n") = [(0, 3)] := by decide +kernel
  rw [h1, h2]
  intro h
  cases h with
  | cons h _ => exact absurd h.1 (by decide)

/-- A line is reported blank iff it has only spaces, tabs and its line end. -/
theorem C36_blank_iff (P : Parser) (hP : P ∈ lineOriented) (l : Leftover) (buf : List Byte) (hb : Plain buf) :
    Each (fun x r => r.kind = .lblank ↔ blankLine buf x.1 x.2 = true) (dueLines buf) (lineReports P.line.machine l buf) := by
  obtain ⟨C⟩ := lineOriented_cert P hP
  obtain ⟨S⟩ := safeAll P (lineOriented_sub P hP)
  have h := (lines_exact S C l hb ⟨by simp, by simp⟩).due
  refine h.imp fun x r h => ?_
  obtain ⟨_, _, _, _, h5, h6⟩ := h
  constructor
  · intro hk
    cases hbl : blankLine buf x.1 x.2 with
    | true => rfl
    | false => exact absurd hk (h6 rfl hbl)
  · intro hbl
    apply Decidable.byContradiction
    intro hk
    rw [h5 rfl hk] at hbl; cases hbl

example : Plain (bytes "x -- y\n \t\n\r\n--\n  z") ∧
    dueLines (bytes "x -- y\n \t\n\r\n--\n  z") = [(0, 7), (7, 10), (10, 12), (12, 15), (15, 18)] ∧
    lineReports parse_ada.line.machine {} (bytes "x -- y\n \t\n\r\n--\n  z") =
      [⟨.lcode, 0, 7⟩, ⟨.lblank, 9, 10⟩, ⟨.lblank, 10, 12⟩, ⟨.lcomment, 12, 15⟩, ⟨.lcode, 15, 18⟩] := by
  refine ⟨by decide, by decide +kernel, by decide +kernel⟩

/-! ### C38: the other languages -/

/-- The scanner never went back over a line end (`Cfg.backs` records where it went back), which it does
only if a construct spanning lines is not closed. -/
def NoBackOverLineEnd (M : Machine) (l : Leftover) (buf : List Byte) : Prop :=
  ∀ x ∈ (exec M l buf).backs, ∀ e, x.1 ≤ e → e < x.2 → lineEnd buf e = false

/-- The scanner never passed a line end inside a token without a callback (`Cfg.raw` records where). -/
def NoRawLineEnd (M : Machine) (l : Leftover) (buf : List Byte) : Prop := (exec M l buf).raw = []

/-- The full property. -/
def C38_full (P : Parser) : Prop := ∀ l buf, Plain buf → Each SameLine (dueLines buf) (lineReports P.line.machine l buf)

/-- It is false of C: in an unclosed block comment the lines are reported twice, and a line end inside a string is
not reported at all. -/
theorem C38_negation : ¬ C38_full parse_c := by
  intro h
  have h1 := (h {} (bytes "/* a\nb\nc\n") (by decide)).length
  revert h1; decide +kernel

theorem C38_negation_swallowed : ∃ buf, Plain buf ∧ (dueLines buf).length = 3 ∧
    lineReports parse_c.line.machine {} buf = [⟨.lcode, 0, 11⟩, ⟨.lcode, 11, 13⟩] :=
  ⟨bytes "x = \"a\nb\";\ny\n", by decide, by decide +kernel, by decide +kernel⟩

/-- For 35 more parsers each line is reported exactly once, with its extent and blank iff it is blank, whenever the scanner
did not go back over a line end. -/
theorem C38_closed_partial (P : Parser) (hP : P ∈ closable) (l : Leftover) (buf : List Byte) (hb : Plain buf)
    (ht : NoBackOverLineEnd P.line.machine l buf) :
    Each SameLine (dueLines buf) (lineReports P.line.machine l buf) ∧
    Each (fun x r => r.kind = .lblank ↔ blankLine buf x.1 x.2 = true) (dueLines buf) (lineReports P.line.machine l buf) := by
  obtain ⟨C⟩ := closable_cert P hP
  obtain ⟨S⟩ := safeAll P (closable_sub P hP)
  have h := (lines_exact S C l hb ⟨fun _ => ht, by simp⟩).due
  refine ⟨h.imp fun _ _ h => ⟨h.1, h.2.1, h.2.2.1, h.2.2.2.1⟩, h.imp fun x r h => ?_⟩
  obtain ⟨_, _, _, _, h5, h6⟩ := h
  constructor
  · intro hk
    cases hbl : blankLine buf x.1 x.2 with
    | true => rfl
    | false => exact absurd hk (h6 rfl hbl)
  · intro hbl
    apply Decidable.byContradiction
    intro hk
    rw [h5 rfl hk] at hbl; cases hbl

/-- For all modelled parsers but three (lua, rebol, vim): each terminated line is reported exactly once, in order, with
its extent, and the text after the last line end at most once, whenever the scanner neither went back over a line
end nor passed one without a callback; which of the two hypotheses are needed, and in which direction the
reported kind and the blankness of the line agree (`Covers`), is told by `levels`. -/
theorem C38_levels_partial (P : Parser) (L : Lvl) (hP : (P, L) ∈ levels) (l : Leftover) (buf : List Byte) (hb : Plain buf)
    (ht : L.tame = true → NoBackOverLineEnd P.line.machine l buf)
    (hr : L.noraw = true → NoRawLineEnd P.line.machine l buf) :
    LinesReported L.s1 L.s2 buf (lineReports P.line.machine l buf) := by
  obtain ⟨C⟩ := linesAll (P, L) hP
  obtain ⟨S⟩ := safeAll P (levels_sub (P, L) hP)
  exact lines_exact S C l hb ⟨ht, hr⟩

/-- The hypotheses are met by a C source with a block comment over lines, strings and code. -/
example : Plain (bytes "/* a\n\n b */ x = \"/*\";\n // y\n\nz") ∧
    NoBackOverLineEnd parse_c.line.machine {} (bytes "/* a\n\n b */ x = \"/*\";\n // y\n\nz") ∧
    NoRawLineEnd parse_c.line.machine {} (bytes "/* a\n\n b */ x = \"/*\";\n // y\n\nz") := by
  refine ⟨by decide, ?_, by unfold NoRawLineEnd; decide +kernel⟩
  have : (exec parse_c.line.machine {} (bytes "/* a\n\n b */ x = \"/*\";\n // y\n\nz")).backs.all
      (fun x => (List.range x.2).all fun e => !decide (x.1 ≤ e) || !lineEnd (bytes "/* a\n\n b */ x = \"/*\";\n // y\n\nz") e) = true := by
    decide +kernel
  intro x hx e h1 h2
  have h3 := List.all_eq_true.mp (List.all_eq_true.mp this x hx) e (List.mem_range.mpr h2)
  simpa [h1] using h3

/-! ### C41 -/

/-- Every modelled line parser stops by itself within `n * (n + 8)` steps on a buffer of `n` bytes. -/
theorem C41_stops (P : Parser) (hP : P ∈ parsers) (l : Leftover) (buf : List Byte) :
    P.line.machine.step buf (P.line.machine.run buf (buf.length * (buf.length + 8)) (initCfg l)) = none := by
  obtain ⟨S⟩ := safeAll P hP
  exact exec_stops S l buf

/-- More steps change nothing: `exec`, which all other statements are about, is the configuration in which the scanner stops. -/
theorem C41_exec (P : Parser) (hP : P ∈ parsers) (l : Leftover) (buf : List Byte) (k : Nat)
    (hk : buf.length * (buf.length + 8) ≤ k) : P.line.machine.run buf k (initCfg l) = exec P.line.machine l buf := by
  have key : ∀ (M : Machine) (a b : Nat) (c : Cfg), M.step buf (M.run buf a c) = none → M.run buf (a + b) c = M.run buf a c := by
    intro M a
    induction a with
    | zero =>
      intro b c h
      cases b with
      | zero => rfl
      | succ b =>
        rw [Nat.zero_add]
        show (match M.step buf c with | none => c | some c' => M.run buf b c') = c
        have h' : M.step buf c = none := h
        rw [h']
    | succ a ih =>
      intro b c h
      rw [show a + 1 + b = (a + b) + 1 by omega]
      show (match M.step buf c with | none => c | some c' => M.run buf (a + b) c') = (match M.step buf c with | none => c | some c' => M.run buf a c')
      cases hs : M.step buf c with
      | none => rfl
      | some c' =>
        apply ih
        have h' : M.step buf (match M.step buf c with | none => c | some c' => M.run buf a c') = none := h
        rw [hs] at h'
        exact h'
  have h0 := C41_stops P hP l buf
  obtain ⟨j, rfl⟩ := Nat.exists_eq_add_of_le hk
  rw [key _ _ _ _ h0]
  unfold exec fuel
  rw [show (buf.length + 1) * (buf.length + 8) = buf.length * (buf.length + 8) + (buf.length + 8) by
    rw [Nat.add_mul]; omega]
  rw [key _ _ _ _ h0]

/-! ### C40 -/

/-- The callbacks of every call of every sequence of calls are those the call makes as the first call of the process (the static
variables are zero then): nothing depends on earlier calls, of whatever scanners on whatever buffers. -/
theorem C40_history (l : Leftover) (calls : List Call) : history l calls = calls.map fun c => c.callbacks {} := by
  induction calls generalizing l with
  | nil => rfl
  | cons c r ih =>
    simp only [history, List.map_cons, ih]
    congr 1
    unfold Call.callbacks
    rw [lineReports_leftover c.M l {}, entityReports_leftover c.M l {}]

/-- The same for `ohcount_parse`. -/
theorem C40_parse (lang : String) (l l' : Leftover) (buf : List Byte) : ohcountParse lang l buf = ohcountParse lang l' buf := by
  unfold ohcountParse reports
  split
  · rfl
  · split
    · rfl
    · rw [lineReports_leftover _ l l']

/-- Ruby leaves old values behind: the unclosed string is queued and never committed. -/
example : (Call.mk parse_ruby.line.machine (bytes "x 'a\nb\n")).after {} = ⟨some 0, true, false, [⟨.lcode, 0, 5⟩]⟩ ∧
    history {} [⟨parse_ruby.line.machine, bytes "x 'a\nb\n"⟩, ⟨parse_ruby.line.machine, bytes "# a\n'b\nc'\n"⟩] =
      [([⟨.lcode, 0, 5⟩, ⟨.lcode, 5, 7⟩], []), ([⟨.lcomment, 0, 4⟩, ⟨.lcode, 4, 7⟩, ⟨.lcode, 7, 10⟩], [])] := by
  decide +kernel

/-! ### C42 -/

/-- A vertical tab between two tokens (outside every construct) ends the counting: whatever text `r` follows, the callbacks are those
made before, and possibly one that takes the whole rest of the file for the end of the current line. -/
theorem C42_rest_not_counted (P : Parser) (hP : P ∈ parsers) (l : Leftover) (a : List Byte)
    (h : BetweenTokens P.line.machine l a 11) :
    ∃ out : List Rep, (∀ r, lineReports P.line.machine l (a ++ 11 :: r) = out) ∨
      ∃ k s, ∀ r, lineReports P.line.machine l (a ++ 11 :: r) = out ++ [⟨k, s, a.length + 1 + r.length⟩] :=
  reports_stuck (noTab P hP) h

/-- A file that starts with a vertical tab has no lines at all, in every modelled language. -/
theorem C42_at_start (P : Parser) (hP : P ∈ parsers) (l : Leftover) (r : List Byte) :
    lineReports P.line.machine l (11 :: r) = [] := by
  have h : P.line.machine.step (11 :: r) (initCfg l) = none := by
    unfold Machine.step
    simp only [initCfg]
    rw [List.getElem?_cons_zero]
    simp only []
    rw [delta_noStart (noTab P hP)]
    rfl
  unfold lineReports exec
  rw [run_stopped _ _ h]
  rfl

/-- In C source, after a first line of code, nothing more is reported whatever follows the vertical tab. -/
theorem C42_after_a_line (l : Leftover) (r : List Byte) :
    lineReports parse_c.line.machine l (bytes "int x;\n" ++ 11 :: r) = [⟨.lcode, 0, 7⟩] := by
  rw [lineReports_leftover _ l {}]
  have hb : BetweenTokens parse_c.line.machine {} (bytes "int x;\n") 11 :=
    ⟨8, by decide, by decide +kernel, by decide +kernel, by decide +kernel⟩
  have h0 : lineReports parse_c.line.machine {} (bytes "int x;\n" ++ [11]) = [⟨.lcode, 0, 7⟩] := by decide +kernel
  obtain ⟨out, h | ⟨k, s, h⟩⟩ := C42_rest_not_counted parse_c (List.mem_of_getElem? (i := 13) rfl) {} _ hb
  · rw [h r, ← h []]; exact h0
  · rw [h []] at h0
    have h1 := congrArg List.getLast? h0
    simp only [List.getLast?_concat, List.getLast?_singleton, Option.some.injEq, Rep.mk.injEq] at h1
    exact absurd h1.2.2 (by decide)

end Ohcount.Ragel
