import Verif.LineEndings

/-!
C106-C108 for the line-oriented languages, where lines and blank lines are counted whatever the text is: no comment or string
has to be closed.
-/

namespace Ohcount.Ragel
open Gram Cert

/-- The text read as a language without comments and strings. -/
abbrev noLexis : Lexis := []

theorem scan_none : ∀ (l : List Nat) (lb : Kind), noLexis.scan .code 0 lb l = (l.map (fun b => if isWhite b then .lblank else .lcode), .code)
  | [], lb => rfl
  | b :: r, lb => by
    have ih := scan_none r
    have ht : noLexis.tok .code (b :: r) = ⟨1, if isWhite b then .lblank else .lcode, .code⟩ := rfl
    simp only [Lexis.scan, ht, Nat.sub_self, ih, List.map_cons]

theorem isInk_white (b : Byte) : isInk b = !isWhite b.toNat := by
  unfold isInk isWhite isNl
  have h : ∀ (n : Byte), (b == n) = (b.toNat == n.toNat) := by
    intro n
    rw [Bool.eq_iff_iff, beq_iff_eq, beq_iff_eq]
    exact UInt8.toNat_inj.symm
  rw [h 32, h 9, h 10, h 12, h 13]
  simp only [Bool.or_assoc]
  rfl

theorem labels_none (T : List Byte) : noLexis.labels T = T.map fun b => if isInk b then .lcode else .lblank := by
  unfold Lexis.labels Lexis.all
  rw [scan_none, List.map_map]
  refine List.map_congr_left fun b _ => ?_
  simp only [Function.comp, isInk_white]
  cases isWhite b.toNat <;> rfl

theorem lineKind_none (T : List Byte) (x y : Nat) : noLexis.lineKind T x y = if blankLine T x y then .lblank else .lcode := by
  unfold Lexis.lineKind blankLine
  rw [labels_none, ← List.map_drop, ← List.map_take]
  generalize (T.drop x).take (y - x) = l
  induction l with
  | nil => rfl
  | cons b r ih =>
    cases hb : isInk b with
    | true => simp [hb]
    | false =>
      simp only [hb, List.map_cons, List.all_cons, Bool.not_false, Bool.true_and, Bool.false_eq_true, if_false]
      rw [← ih]
      simp [List.contains_cons]

/-- Which lines of a text are blank. -/
def blanks (T : List Byte) : List Bool := (dueLines T).map fun x => blankLine T x.1 x.2

theorem blanks_kinds (T : List Byte) : blanks T = (noLexis.kinds T).map (· == .lblank) := by
  unfold blanks dueLines Lexis.kinds Lexis.lines
  rw [List.map_append, List.map_append, List.map_append, List.map_map, List.map_map]
  simp only [lineKind_none]
  congr 1
  · refine List.map_congr_left fun x _ => ?_
    simp only [Function.comp, lineKind_none]
    cases blankLine T x.1 x.2 <;> rfl
  · cases h : blankLine T (lastStart T) T.length <;> simp [h]

theorem each_map {α β γ : Type} {R : α → β → Prop} {f : α → γ} {g : β → γ} (hi : ∀ a b, R a b → g b = f a) :
    ∀ {l : List α} {r : List β}, Each R l r → r.map g = l.map f
  | _, _, .nil => rfl
  | _, _, .cons h t => by rw [List.map_cons, List.map_cons, hi _ _ h, each_map hi t]

/-- The reports of a parser, with no more than whether they are for a blank line. -/
def reportedBlank (P : Parser) (l : Leftover) (T : List Byte) : List Bool := (reported P l T).map (· == .lblank)

theorem reportedBlank_eq {P : Parser} (hP : P ∈ lineOriented) (l : Leftover) {T : List Byte} (hp : Plain T) : reportedBlank P l T = blanks T := by
  unfold reportedBlank reported blanks
  rw [List.map_map]
  refine each_map ?_ (C36_blank_iff P hP l T hp)
  intro x r h
  rw [Bool.eq_iff_iff, ← h]
  exact beq_iff_eq

theorem wellFormed_none (T : List Byte) : noLexis.WellFormed T := by
  unfold Lexis.WellFormed Lexis.all
  rw [scan_none]; rfl

theorem piece_none {T : List Byte} (h : T = [] ∨ T.getLast? = some 10) : noLexis.Piece T := by
  refine ⟨h, ?_⟩
  unfold Lexis.all
  rw [scan_none]

/-- C106 for any text: the lines of two texts, the first of which consists of complete lines, are the lines of the one and the
lines of the other, and the same ones are blank. -/
theorem C106_any (P : Parser) (hP : P ∈ lineOriented) (l l1 l2 : Leftover) (T X : List Byte) (hT : T = [] ∨ T.getLast? = some 10)
    (hp : Plain T) (hX : Plain X) : reportedBlank P l (T ++ X) = reportedBlank P l1 T ++ reportedBlank P l2 X := by
  rw [reportedBlank_eq hP l (plain_append hp hX), reportedBlank_eq hP l1 hp, reportedBlank_eq hP l2 hX, blanks_kinds, blanks_kinds, blanks_kinds,
    kinds_append rfl (piece_none hT) X, List.map_append]

/-- C107 for any text: carriage returns before the line feeds change neither the number of lines nor which are blank. -/
theorem C107_any (P : Parser) (hP : P ∈ lineOriented) (l l' : Leftover) (T : List Byte) (hp : Plain T) (h13 : 13 ∉ T) :
    reportedBlank P l (crlf T) = reportedBlank P l' T := by
  rw [reportedBlank_eq hP l (plain_crlf hp h13), reportedBlank_eq hP l' hp, blanks_kinds, blanks_kinds,
    (crlf_facts (L := noLexis) rfl h13 (wellFormed_none T)).2]

/-- C108 for any text: complete lines are indented, each group of them by its own spaces and tabs; this changes neither the number of
lines nor which are blank. -/
theorem C108_any (P : Parser) (hP : P ∈ lineOriented) (l l' : Leftover) (Ts : List (List Byte × List Byte))
    (hT : ∀ q ∈ Ts, isIndent q.1 = true ∧ q.2.getLast? = some 10 ∧ Plain q.2) (W X : List Byte) (hW : isIndent W = true) (hX : Plain X) :
    reportedBlank P l ((Ts.map fun q => q.1 ++ q.2).flatten ++ (W ++ X)) = reportedBlank P l' ((Ts.map (·.2)).flatten ++ X) := by
  obtain ⟨a, b, c⟩ := indented_facts (L := noLexis) rfl rfl Ts (fun q h => by
    obtain ⟨h1, h2, h3⟩ := hT q h
    refine ⟨h1, ?_, piece_none (.inr h2), h3⟩
    intro e; rw [e] at h2; cases h2) W X hW hX (wellFormed_none X)
  rw [reportedBlank_eq hP l b.1, reportedBlank_eq hP l' a.1, blanks_kinds, blanks_kinds, c]

/-- Ada, with a string that is not closed. -/
example : parse_ada ∈ lineOriented ∧ Plain (bytes "x := \"a\n\n-- b\n") ∧ (bytes "x := \"a\n\n-- b\n").getLast? = some 10 ∧
    13 ∉ bytes "x := \"a\n\n-- b\n" ∧ isIndent (bytes " \t") = true ∧
    reportedBlank parse_ada {} (crlf (bytes "x := \"a\n\n-- b\n")) = [false, true, false] ∧
    reportedBlank parse_ada {} (bytes "x := \"a\n \t\n-- b\n") = [false, true, false] := by
  refine ⟨by simp [lineOriented], by decide, by decide, by decide, by decide, by decide +kernel, by decide +kernel⟩

end Ohcount.Ragel
