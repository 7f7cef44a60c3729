import Verif.Cert.EC
import Verif.EmbedProps

/-!
C65: a page whose first parts consist of complete lines is counted part by part.
C66: what a parser with embedded languages reports does not depend on what it was used for before.
-/

namespace Ohcount.Ragel

open Cert Gram

/-! ### C65 -/

theorem embShiftLine_parsers : ∀ P ∈ embShiftLine, P ∈ embParsers := by
  intro P h
  simp only [embShiftLine, List.mem_cons, List.not_mem_nil, or_false] at h
  rcases h with rfl | rfl | rfl | rfl | rfl | rfl | rfl | rfl | rfl <;> simp [embParsers]

/-- Two parts. -/
theorem C65_two_parts (P : EParser) (hP : P ∈ embShiftLine) (l l' : ELeft) {T : List Byte} (hT : P.whole T = true) (X : List Byte) :
    P.reports l (T ++ X) = P.reports l T ++ (P.reports l' X).map (ERep.sh T.length) :=
  reports_append (embShiftLineAll P hP) (embLineAll P (embShiftLine_parsers P hP)) hT l l' X

/-- The callbacks of the parts, each at the place of its part. -/
def partReports (P : EParser) (l : ELeft) : Nat → List (List Byte) → List ERep
  | _, [] => []
  | k, T :: Ts => (P.reports l T).map (ERep.sh k) ++ partReports P l (k + T.length) Ts

theorem ERep.sh_sh (j k : Nat) (l : List ERep) : (l.map (ERep.sh j)).map (ERep.sh k) = l.map (ERep.sh (k + j)) := by
  rw [List.map_map]
  apply List.map_congr_left
  intro r _
  unfold ERep.sh
  simp only [Function.comp, ERep.mk.injEq, true_and]
  omega

theorem partReports_sh (P : EParser) (l : ELeft) (j : Nat) : ∀ (Ts : List (List Byte)) (k : Nat),
    (partReports P l k Ts).map (ERep.sh j) = partReports P l (j + k) Ts
  | [], _ => rfl
  | T :: Ts, k => by
    unfold partReports
    rw [List.map_append, ERep.sh_sh, partReports_sh P l j Ts, Nat.add_assoc]

theorem reports_nil (P : EParser) (l : ELeft) : P.reports l [] = [] := by
  unfold EParser.reports EParser.final eexec
  have : P.multi.run [] (efuel ([] : List Byte).length) (einit P.line l) = einit P.line l := Multi.run_stopped (by
    unfold Multi.step einit
    simp) _
  rw [this]
  rfl

/-- Any number of parts, the last of which need not be complete. -/
theorem C65_parts (P : EParser) (hP : P ∈ embShiftLine) (l : ELeft) : ∀ (Ts : List (List Byte)), (∀ T ∈ Ts, P.whole T = true) → ∀ X : List Byte,
    P.reports l (Ts.flatten ++ X) = partReports P l 0 (Ts ++ [X])
  | [], _, X => by
    unfold partReports partReports
    simp only [List.flatten_nil, List.nil_append, List.append_nil]
    conv => lhs; rw [← List.map_id (P.reports l X)]
    apply List.map_congr_left
    intro r _
    rfl
  | T :: Ts, h, X => by
    have := C65_parts P hP l Ts (fun T' hT' => h T' (List.mem_cons_of_mem _ hT')) X
    rw [List.flatten_cons, List.append_assoc, C65_two_parts P hP l l (h T (List.mem_cons_self ..)), this, partReports_sh, List.cons_append]
    show _ = (P.reports l T).map (ERep.sh 0) ++ partReports P l (0 + T.length) (Ts ++ [X])
    congr 1
    · conv => lhs; rw [← List.map_id (P.reports l T)]
      apply List.map_congr_left
      intro r _
      rfl
    · rw [Nat.zero_add, Nat.add_zero]

/-- The number of lines of one kind in one language is the sum over the parts. -/
theorem C65_counts (P : EParser) (hP : P ∈ embShiftLine) (l : ELeft) (Ts : List (List Byte)) (h : ∀ T ∈ Ts, P.whole T = true) (X : List Byte)
    (lang : Nat) (kind : Kind) :
    (P.reports l (Ts.flatten ++ X)).countP (fun r => r.lang == lang && r.kind == kind) =
      ((Ts ++ [X]).map fun T => (P.reports l T).countP fun r => r.lang == lang && r.kind == kind).sum := by
  rw [C65_parts P hP l Ts h X]
  generalize 0 = k
  generalize Ts ++ [X] = Us
  induction Us generalizing k with
  | nil => rfl
  | cons T Us ih =>
    unfold partReports
    rw [List.countP_append, ih, List.map_cons, List.sum_cons, List.countP_map]
    rfl

example : embShiftLine.map (·.name) = ["parse_html", "parse_mxml", "parse_nix", "parse_jsp", "parse_phtml", "parse_cshtml",
    "parse_cs_aspx", "parse_rhtml", "parse_vb_aspx"] := by decide +kernel

/-- A style element is made of complete lines. -/
example : Emb.Html.parser.whole (bytes "<p>\n<style type=\"text/css\" >\nb {}\n</style>\n") = true := by decide +kernel
/-- Java code in a JSP page. -/
example : Emb.Jsp.parser.whole (bytes "<b>\n<%\nint a = 1; // one\n%>\n") = true := by decide +kernel
/-- PHP code. -/
example : Emb.Phphtml.parser.whole (bytes "<?php\n$a = 1; # one\n?>\n<b>\n") = true := by decide +kernel
/-- A shell script in Nix. -/
example : Emb.Nix.parser.whole (bytes "{ a = 1; # b\n}\n") = true := by decide +kernel
/-- An open comment is not. -/
example : Emb.Html.parser.whole (bytes "<!--\n") = false := by decide +kernel

/-! ### C66 -/

/-- Every parser with embedded languages gives the same line callbacks and the same entity callbacks for a buffer, whatever is in the
variables that the functions do not initialise. -/
theorem C66_history (P : EParser) (_ : P ∈ embParsers) (l l' : ELeft) (buf : List Byte) :
    P.reports l buf = P.reports l' buf ∧ P.entityReports l buf = P.entityReports l' buf :=
  ⟨reports_same P l' l buf, entityReports_same P l' l buf⟩

end Ohcount.Ragel
