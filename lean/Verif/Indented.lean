import Verif.Additions
import Verif.LineEndings

/-!
C110 for files that differ in their indentation only.
-/

namespace Ohcount.LibraryProps
open Ohcount Ragel Gram Cert ParsedLanguageProps SourceFileProps Diff DiffProps Mem

theorem lineEnd_indent {W : List Byte} (hW : isIndent W = true) (T : List Byte) (q : Nat) : lineEnd (W ++ T) (W.length + q) = lineEnd T q := by
  cases q with
  | zero =>
    cases hw : W.length with
    | zero => rfl
    | succ p =>
      have hp : p < W.length := by omega
      have hb : (W ++ T)[p]? = some W[p] := by rw [List.getElem?_append_left hp, List.getElem?_eq_getElem hp]
      have := List.all_eq_true.1 hW _ (List.getElem_mem hp)
      simp only [Bool.or_eq_true, beq_iff_eq] at this
      simp only [Nat.add_zero, lineEnd, hb]
      rcases this with e | e <;> rw [e] <;> rfl
  | succ q =>
    have e : ∀ i, (W ++ T)[W.length + i]? = T[i]? := by
      intro i
      rw [List.getElem?_append_right (by omega)]
      congr 1; omega
    have e1 := e q
    have e2 := e (q + 1)
    rw [← Nat.add_assoc] at e2 ⊢
    simp only [lineEnd, e1, e2]

theorem lineEnd_within {W : List Byte} (hW : isIndent W = true) (T : List Byte) {p : Nat} (hp : p < W.length) : lineEnd (W ++ T) p = false := by
  cases p with
  | zero => rfl
  | succ p =>
    have hp : p < W.length := by omega
    have hb : (W ++ T)[p]? = some W[p] := by rw [List.getElem?_append_left hp, List.getElem?_eq_getElem hp]
    have := List.all_eq_true.1 hW _ (List.getElem_mem hp)
    simp only [Bool.or_eq_true, beq_iff_eq] at this
    simp only [lineEnd, hb]
    rcases this with e | e <;> rw [e] <;> rfl

theorem lineEnds_indent {W : List Byte} (hW : isIndent W = true) (T : List Byte) : lineEnds (W ++ T) = (lineEnds T).map (W.length + ·) := by
  unfold lineEnds
  rw [List.length_append, Nat.add_assoc, List.range_add, List.filter_append, List.filter_map]
  have h1 : (List.range W.length).filter (lineEnd (W ++ T)) = [] := by
    rw [List.filter_eq_nil_iff]
    intro p hp
    rw [lineEnd_within hW T (List.mem_range.1 hp)]
    decide
  rw [h1, List.nil_append]
  congr 2
  funext q
  exact lineEnd_indent hW T q

/-- The lines of a text, the last of which may be empty. -/
theorem all_lines (n : Nat) : ∀ (E : List Nat) (x : Nat), (x :: E).zip E ++ [(E.getLastD x, n)] = (x :: E).zip (E ++ [n])
  | [], x => rfl
  | e :: E, x => by
    have h := all_lines n E e
    have hl : (e :: E).getLastD x = E.getLastD e := by cases E <;> rfl
    rw [hl, List.zip_cons_cons, List.cons_append, h]
    rfl

/-- The text of a line, without the blanks before it, if the line is of the kind. -/
def lineText (L : Lexis) (T : List Byte) (k : Kind) (x : Nat × Nat) : List (List Byte) :=
  if L.lineKind T x.1 x.2 = k then [((T.take x.2).drop x.1).dropWhile fun b => b == 0x20 || b == 0x09] else []

theorem kindLines_flat (L : Lexis) (T : List Byte) (k : Kind) (hk : k ≠ .lblank) :
    kindLines T (L.lines T) k = ((0 :: lineEnds T).zip (lineEnds T ++ [T.length])).flatMap (lineText L T k) := by
  rw [← all_lines]
  unfold kindLines Lexis.lines
  rw [List.filter_append, List.map_append, List.flatMap_append]
  congr 1
  · unfold terminated
    generalize (0 :: lineEnds T).zip (lineEnds T) = l
    induction l with
    | nil => rfl
    | cons x l ih =>
      rw [List.map_cons, List.filter_cons, List.flatMap_cons, ← ih]
      unfold lineText
      by_cases e : L.lineKind T x.1 x.2 = k
      · simp [e]
      · simp [e]
  · simp only [List.flatMap_cons, List.flatMap_nil, List.append_nil]
    have : (lineEnds T).getLastD 0 = lastStart T := rfl
    rw [this]
    unfold lineText
    by_cases e : L.lineKind T (lastStart T) T.length = k
    · have : L.lineKind T (lastStart T) T.length ≠ .lblank := by rw [e]; exact hk
      simp [e, hk]
    · split
      · simp [e]
      · simp [e]

theorem contains_blanks (n : Nat) (ks : List Kind) (k : Kind) (hk : k ≠ .lblank) : (List.replicate n Kind.lblank ++ ks).contains k = ks.contains k := by
  rw [Bool.eq_iff_iff, List.contains_iff_mem, List.contains_iff_mem, List.mem_append]
  refine ⟨fun h => h.resolve_left fun h => hk (List.eq_of_mem_replicate h), .inr⟩

/-- The first line, with an indentation, and the other lines. -/
theorem lineText_indent {L : Lexis} (h : L.inked = true) {W : List Byte} (hW : isIndent W = true) (T : List Byte) (k : Kind) (a : Nat) :
    lineText L (W ++ T) k (0, W.length + a) = lineText L T k (0, a) ∧
    ∀ x : Nat × Nat, lineText L (W ++ T) k (W.length + x.1, W.length + x.2) = lineText L T k x := by
  have hl : L.labels (W ++ T) = List.replicate W.length .lblank ++ L.labels T := by
    conv => lhs; unfold Lexis.labels
    rw [all_indent h hW T]
  constructor
  · have hk : L.lineKind (W ++ T) 0 (W.length + a) = L.lineKind T 0 a := by
      unfold Lexis.lineKind
      rw [hl, List.drop_zero, List.drop_zero, Nat.sub_zero, Nat.sub_zero]
      have : (List.replicate W.length Kind.lblank ++ L.labels T).take (W.length + a) = List.replicate W.length .lblank ++ (L.labels T).take a := by
        have := List.take_length_add_append (l₁ := List.replicate W.length Kind.lblank) (l₂ := L.labels T) a
        rwa [List.length_replicate] at this
      rw [this]
      dsimp only
      rw [contains_blanks _ _ .lcode (by decide), contains_blanks _ _ .lcomment (by decide)]
    unfold lineText
    rw [hk, List.take_length_add_append, List.drop_zero, List.drop_zero]
    have : (W ++ T.take a).dropWhile (fun b => b == 0x20 || b == 0x09) = (T.take a).dropWhile fun b => b == 0x20 || b == 0x09 := by
      rw [List.dropWhile_append_of_pos]
      intro b hb
      exact List.all_eq_true.1 hW b hb
    rw [this]
  · intro x
    have hk : L.lineKind (W ++ T) (W.length + x.1) (W.length + x.2) = L.lineKind T x.1 x.2 := by
      unfold Lexis.lineKind
      have : (List.replicate W.length Kind.lblank ++ L.labels T).drop (W.length + x.1) = (L.labels T).drop x.1 := by
        have := List.drop_length_add_append (l₁ := List.replicate W.length Kind.lblank) (l₂ := L.labels T) x.1
        rwa [List.length_replicate] at this
      rw [hl, this, Nat.add_sub_add_left]
    unfold lineText
    rw [hk, List.take_length_add_append, List.drop_length_add_append]

/-- Blanks before a text do not change its lines of code and of comment. -/
theorem kindLines_indent {L : Lexis} (h : L.inked = true) {W : List Byte} (hW : isIndent W = true) (T : List Byte) (k : Kind) (hk : k ≠ .lblank) :
    kindLines (W ++ T) (L.lines (W ++ T)) k = kindLines T (L.lines T) k := by
  rw [kindLines_flat L _ k hk, kindLines_flat L T k hk, lineEnds_indent hW, List.length_append]
  have e : (lineEnds T).map (W.length + ·) ++ [W.length + T.length] = (lineEnds T ++ [T.length]).map (W.length + ·) := by simp
  rw [e]
  generalize hE : lineEnds T ++ [T.length] = R
  cases R with
  | nil => simp at hE
  | cons a R =>
    rw [List.map_cons, List.zip_cons_cons, List.zip_cons_cons, List.flatMap_cons, List.flatMap_cons, (lineText_indent h hW T k a).1,
      List.zip_map, List.flatMap_map]
    congr 1
    rw [List.flatMap_def, List.flatMap_def]
    congr 1
    exact List.map_congr_left fun x _ => (lineText_indent h hW T k a).2 x

theorem piece_indent {L : Lexis} (h : L.inked = true) {W T : List Byte} (hW : isIndent W = true) (hT : T ≠ [] ∧ L.Piece T) : L.Piece (W ++ T) := by
  refine ⟨.inr ?_, ?_⟩
  · rw [List.getLast?_append, hT.2.1.resolve_left hT.1]; rfl
  · rw [(indent_facts h hW T).1]; exact hT.2.2

theorem kindLines_indented {L : Lexis} (hf : L.flat = true) (hi : L.inked = true) (k : Kind) (hk : k ≠ .lblank) (W X : List Byte) (hW : isIndent W = true) :
    ∀ Ts : List (List Byte × List Byte), (∀ q ∈ Ts, isIndent q.1 = true ∧ q.2 ≠ [] ∧ L.Piece q.2) →
    kindLines ((Ts.map (·.2)).flatten ++ X) (L.lines ((Ts.map (·.2)).flatten ++ X)) k =
      kindLines ((Ts.map fun q => q.1 ++ q.2).flatten ++ (W ++ X)) (L.lines ((Ts.map fun q => q.1 ++ q.2).flatten ++ (W ++ X))) k
  | [], _ => (kindLines_indent hi hW X k hk).symm
  | q :: Ts, h => by
    obtain ⟨h1, h2, h3⟩ := h q (.head _)
    have ih := kindLines_indented hf hi k hk W X hW Ts fun q h' => h q (.tail _ h')
    rw [List.map_cons, List.map_cons, List.flatten_cons, List.flatten_cons, List.append_assoc, List.append_assoc, kindLines_append hf h3,
      kindLines_append hf (piece_indent hi h1 ⟨h2, h3⟩), kindLines_indent hi h1 _ k hk, ih]

/-- C110: a file and the same file with blanks and tabs put before lines that do not begin inside of a comment or string are not
different, also if lines have the hash value 0. -/
theorem C110_indented (mc : Host) (ext : Bytes → Bytes → Option Bytes) (junk : Junk) (before : Byte) (disk : Disk) (P : Parser) (L : Lexis)
    (hP : (P, L) ∈ classified) (hT : (bytes P.lang, P.name) ∈ Tables.parsers) (p q : Bytes) (hn : Named P.lang p) (hm : Named P.lang q)
    (Ts : List (List Byte × List Byte)) (hTs : ∀ x ∈ Ts, isIndent x.1 = true ∧ x.2 ≠ [] ∧ L.Piece x.2 ∧ Plain x.2) (W X : List Byte)
    (hW : isIndent W = true) (hX : Plain X) (hw : L.WellFormed X) (hd : disk p = some ((Ts.map (·.2)).flatten ++ X))
    (he : disk q = some ((Ts.map fun x => x.1 ++ x.2).flatten ++ (W ++ X))) (h0 : (0 : Byte) ∉ (Ts.map fun x => x.1 ++ x.2).flatten ++ (W ++ X))
    (hs : Short ((Ts.map (·.2)).flatten ++ X) (L.lines ((Ts.map (·.2)).flatten ++ X))) :
    (∃ w l, (twoFiles before disk p q).step (library mc) ext junk (.diff 0 1) = some (w, .deltas l) ∧ ∀ d ∈ l, d = ⟨P.lang, 0, 0, 0, 0, 0, 0⟩) ∧
    ∃ w l, (twoFiles before disk q p).step (library mc) ext junk (.diff 0 1) = some (w, .deltas l) ∧ ∀ d ∈ l, d = ⟨P.lang, 0, 0, 0, 0, 0, 0⟩ := by
  have hf : L.flat = true := classified_flat _ hP
  have hi : L.inked = true := classified_inked _ hP
  obtain ⟨a, b, c⟩ := indented_facts hf hi Ts hTs W X hW hX hw
  obtain ⟨s₁, e₁, g1, g2⟩ := hn
  obtain ⟨s₂, e₂, g3, g4⟩ := hm
  have k₁ := Known.lexis s₁ e₁ P L _ g1 g2 hP hT hd a.1 a.2
  have k₂ := Known.lexis s₂ e₂ P L _ g3 g4 hP hT he b.1 b.2
  have h0' : (0 : Byte) ∉ (Ts.map (·.2)).flatten ++ X := by
    intro h
    apply h0
    rcases List.mem_append.1 h with h | h
    · obtain ⟨t, h1, h2⟩ := List.mem_flatten.1 h
      obtain ⟨x, h3, rfl⟩ := List.mem_map.1 h1
      exact List.mem_append.2 (.inl (List.mem_flatten.2 ⟨_, List.mem_map.2 ⟨x, h3, rfl⟩, List.mem_append.2 (.inr h2)⟩))
    · simp [h]
  have hk := fun (k : Kind) (hk : k ≠ .lblank) => kindLines_indented hf hi k hk W X hW Ts fun x h => ⟨(hTs x h).1, (hTs x h).2.1, (hTs x h).2.2.1⟩
  have hb : linesOf (L.lines ((Ts.map (·.2)).flatten ++ X)) .lblank =
      linesOf (L.lines ((Ts.map fun x => x.1 ++ x.2).flatten ++ (W ++ X))) .lblank := by
    rw [linesOf_count, linesOf_count]
    exact (congrArg (List.count Kind.lblank) c).symm
  have hs' : Short ((Ts.map fun x => x.1 ++ x.2).flatten ++ (W ++ X)) (L.lines ((Ts.map fun x => x.1 ++ x.2).flatten ++ (W ++ X))) := by
    unfold Short at hs ⊢
    rwa [← hk _ (by decide), ← hk _ (by decide)]
  exact ⟨C102_unchanged mc ext junk before disk p q P.lang _ _ k₁ k₂ _ _ hd he h0' h0 hs (hk _ (by decide)) (hk _ (by decide)) hb,
    C102_unchanged mc ext junk before disk q p P.lang _ _ k₂ k₁ _ _ he hd h0 h0' hs' (hk _ (by decide)).symm (hk _ (by decide)).symm hb.symm⟩

/-- The hypotheses are met by the two Java files of C108. -/
example :
    let Ts := [(bytes "\t", bytes "/* a\n\n */\n"), (bytes "  ", bytes "x;\n")]
    let a := bytes "/* a\n\n */\nx;\n}"
    let b := bytes "\t/* a\n\n */\n  x;\n }"
    (∀ x ∈ Ts, isIndent x.1 = true ∧ x.2 ≠ [] ∧ LexisTable.java_line.Piece x.2 ∧ Plain x.2) ∧ isIndent (bytes " ") = true ∧ Plain (bytes "}") ∧
    LexisTable.java_line.WellFormed (bytes "}") ∧ a = (Ts.map (·.2)).flatten ++ bytes "}" ∧
    b = (Ts.map fun x => x.1 ++ x.2).flatten ++ (bytes " " ++ bytes "}") ∧ (0 : Byte) ∉ b ∧ Short a (LexisTable.java_line.lines a) := by
  intro Ts a b
  exact ⟨by decide +kernel, by decide +kernel, by decide +kernel, by decide +kernel, by decide +kernel, by decide +kernel, by decide +kernel,
    by decide +kernel, by decide +kernel⟩

end Ohcount.LibraryProps
