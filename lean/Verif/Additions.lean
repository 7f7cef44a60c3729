import Verif.DeltaFile
import Verif.Additive

/-!
C110: what the difference of two files in one language counts as added and removed, and files that differ by lines put in or taken out.
-/

namespace Ohcount.LibraryProps
open Ohcount Ragel Gram Cert ParsedLanguageProps SourceFileProps Diff DiffProps Mem

/-! ### Specification -/

/-- The lines of a kind of a file, without the blanks and tabs before them and without their line ends. -/
def bareLines (text : List Byte) (xs : List (Nat × Nat × Kind)) (k : Kind) : List (List Byte) :=
  (kindLines text xs k).map fun l => l.filter fun b => b != 10

/-! ### Lines -/

theorem filter_lf {u : List Byte} (h : (10 : Byte) ∉ u) : u.filter (fun b => b != 10) = u := by
  rw [List.filter_eq_self]
  intro b hb
  rw [bne_iff_ne]
  exact fun e => h (e ▸ hb)

theorem rows_lines {ls : List (List Byte)} (h : Rows ls) :
    ((splitLines ls.flatten).filter fun l => !l.isEmpty) = ls.map fun l => l.filter fun b => b != 10 := by
  induction h with
  | nil => rfl
  | one u h1 h2 =>
    rw [List.flatten_cons, List.flatten_nil, List.append_nil, splitLines_one h2, List.map_cons, filter_lf h2]
    cases u with
    | nil => exact absurd rfl h1
    | cons a u => rfl
  | cons u ls h1 h2 _ ih =>
    rw [List.flatten_cons, List.append_assoc, List.singleton_append, splitLines_cons h2, List.filter_cons, ih, List.map_cons,
      List.filter_append, filter_lf h2]
    cases u with
    | nil => exact absurd rfl h1
    | cons a u => simp

theorem recorded_lines {lang : String} {text : List Byte} {xs : List (Nat × Nat × Kind)} {pls : List ParsedLanguage}
    (h : Recorded lang text xs pls) {f : Nat → Nat → Kind} (hx : xs = kinded text f) (ho : Ordinary text xs) :
    nonEmptyLines (recorded pls lang).1 = bareLines text xs .lcode ∧ nonEmptyLines (recorded pls lang).2.1 = bareLines text xs .lcomment := by
  subst hx
  unfold nonEmptyLines bareLines
  rw [h.code, h.comments, if_pos rfl, if_pos rfl]
  exact ⟨rows_lines (known_rows text f ho _ (by decide)), rows_lines (known_rows text f ho _ (by decide))⟩

theorem bareLines_length (text : List Byte) (xs : List (Nat × Nat × Kind)) (k : Kind) : (bareLines text xs k).length = linesOf xs k := by
  simp [bareLines, kindLines, linesOf]

theorem small_lcs (ext : Bytes → Bytes → Option Bytes) (junk : Junk) (a b : Bytes) (h : NoZeroHash b)
    (ha : (DiffProps.text a).length ≤ 100000) (hb : (DiffProps.text b).length ≤ 100000) :
    ∃ k, IsLCS ((nonEmptyLines a).map lineHash) ((nonEmptyLines b).map lineHash) k ∧
      ohcountCalcDiff ext junk a b = some (((nonEmptyLines b).length : Int) - k, ((nonEmptyLines a).length : Int) - k) := by
  have : ¬ ((cstr a).length > 100000 ∨ (cstr b).length > 100000) := by
    change ¬ ((DiffProps.text a).length > 100000 ∨ (DiffProps.text b).length > 100000); omega
  rw [ohcountCalcDiff, if_neg this]
  exact C19_minimal_partial junk a b h

/-- A list with one name, as a set of names, and no name twice, has one entry. -/
theorem one_entry {l : List LocDelta} {lang : String} (hn : (l.map LocDelta.language).Nodup)
    (h : ∀ x, x ∈ l.map LocDelta.language ↔ x = lang) : ∃ d, l = [d] ∧ d.language = lang := by
  cases l with
  | nil => exact absurd ((h lang).2 rfl) (by simp)
  | cons d l =>
    have hd := (h d.language).1 (by simp)
    cases l with
    | nil => exact ⟨d, rfl, hd⟩
    | cons e l =>
      have he := (h e.language).1 (by simp)
      rw [List.map_cons, List.map_cons, hd, he] at hn
      simp at hn

/-! ### The property -/

/-- C110: of two files in one language that have lines, the lines of code, and those of comment, that are not counted as added and
removed are a longest common subsequence, where lines are known by their hash values. The numbers of blank lines are subtracted. -/
theorem C110_least (mc : Host) (ext : Bytes → Bytes → Option Bytes) (junk : Junk) (before : Byte) (disk : Disk)
    (p₁ p₂ : List Byte) (lang : String) (xs₁ xs₂ : List (Nat × Nat × Kind)) (k₁ : Known disk p₁ lang xs₁) (k₂ : Known disk p₂ lang xs₂)
    (t₁ t₂ : List Byte) (d₁ : disk p₁ = some t₁) (d₂ : disk p₂ = some t₂) (z₁ : (0 : Byte) ∉ t₁) (z₂ : (0 : Byte) ∉ t₂)
    (o₁ : Ordinary t₁ xs₁) (o₂ : Ordinary t₂ xs₂) (s₁ : Short t₁ xs₁) (s₂ : Short t₂ xs₂) (hh : Hashed t₂ xs₂) (hx : xs₁ ≠ [] ∨ xs₂ ≠ []) :
    ∃ (w : DWorld) (c m : Nat), (twoFiles before disk p₁ p₂).step (library mc) ext junk (.diff 0 1) = some (w, .deltas [⟨lang,
        (linesOf xs₂ .lcode : Int) - c, (linesOf xs₁ .lcode : Int) - c, (linesOf xs₂ .lcomment : Int) - m, (linesOf xs₁ .lcomment : Int) - m,
        max 0 ((linesOf xs₂ .lblank : Int) - linesOf xs₁ .lblank), max 0 ((linesOf xs₁ .lblank : Int) - linesOf xs₂ .lblank)⟩]) ∧
      IsLCS ((bareLines t₁ xs₁ .lcode).map lineHash) ((bareLines t₂ xs₂ .lcode).map lineHash) c ∧
      IsLCS ((bareLines t₁ xs₁ .lcomment).map lineHash) ((bareLines t₂ xs₂ .lcomment).map lineHash) m := by
  obtain ⟨f₁, e₁⟩ := known_kinded k₁ d₁
  obtain ⟨f₂, e₂⟩ := known_kinded k₂ d₂
  obtain ⟨a, f, a1, a2, ra⟩ := known_recorded mc before disk p₁ lang xs₁ k₁ t₁ d₁ z₁
  obtain ⟨b, t, b1, b2, rb⟩ := known_recorded mc before disk p₂ lang xs₂ k₂ t₂ d₂ z₂
  obtain ⟨w, l, hw, hn, hm, -⟩ := C102_net_partial mc ext junk before disk p₁ p₂ lang lang xs₁ xs₂ k₁ k₂ t₁ t₂ d₁ d₂ z₁ z₂ o₁ o₂ s₁ s₂ hh
  obtain ⟨d, rfl, hd⟩ := one_entry (lang := lang) hn (by
    intro x
    rw [hm]
    constructor
    · rintro (h | h) <;> exact h.1.symm
    · rintro rfl
      exact hx.elim (fun h => .inl ⟨rfl, h⟩) fun h => .inr ⟨rfl, h⟩)
  have hl : sourcefileDiff ext junk (library mc).junk f t = some [d] := by
    have hs' := congrArg (Option.map (·.2)) hw
    simp only [twoFiles, DWorld.step, List.getElem?_cons_zero, List.getElem?_cons_succ, a1, b1, Option.bind_some, a2, b2,
      Option.getD_some, Option.map_some] at hs'
    cases e : sourcefileDiff ext junk (library mc).junk f t with
    | none => rw [e] at hs'; cases hs'
    | some l' => rw [e] at hs'; cases hs'; rfl
  have hc := (sourcefileDiff_spec ext junk (library mc).junk f t ra.nodup rb.nodup [d] hl).2 d (by simp)
  rw [hd] at hc
  obtain ⟨q1, q2⟩ := recorded_lines ra e₁ o₁
  obtain ⟨q3, q4⟩ := recorded_lines rb e₂ o₂
  obtain ⟨f1, f2, f3⟩ := findLanguage_recorded (library mc).junk lang f
  obtain ⟨g1, g2, g3⟩ := findLanguage_recorded (library mc).junk lang t
  have n1 := nonEmptyLines_congr f1
  have n2 := nonEmptyLines_congr f2
  have n3 := nonEmptyLines_congr g1
  have n4 := nonEmptyLines_congr g2
  rw [ra.code, if_pos rfl] at f1
  rw [ra.comments, if_pos rfl] at f2
  rw [rb.code, if_pos rfl] at g1
  rw [rb.comments, if_pos rfl] at g2
  have hz1 : NoZeroHash (findLanguage (library mc).junk lang t).code.mem := by
    have := hh.1
    unfold NoZeroHash at this ⊢
    rwa [nonEmptyLines_congr (b := (kindLines t₂ xs₂ .lcode).flatten) (by rw [← g1, text_text])]
  have hz2 : NoZeroHash (findLanguage (library mc).junk lang t).comments.mem := by
    have := hh.2
    unfold NoZeroHash at this ⊢
    rwa [nonEmptyLines_congr (b := (kindLines t₂ xs₂ .lcomment).flatten) (by rw [← g2, text_text])]
  obtain ⟨c, c1, c2⟩ := small_lcs ext junk _ _ hz1 (by rw [f1]; exact s₁.1) (by rw [g1]; exact s₂.1)
  obtain ⟨m, m1, m2⟩ := small_lcs ext junk _ _ hz2 (by rw [f2]; exact s₁.2) (by rw [g2]; exact s₂.2)
  rw [n1, n3, q1, q3] at c1 c2
  rw [n2, n4, q2, q4] at m1 m2
  rw [bareLines_length, bareLines_length] at c2 m2
  have h1 := ra.blanks lang
  have h2 := rb.blanks lang
  rw [linesIn, if_pos rfl] at h1 h2
  refine ⟨w, c, m, ?_, c1, m1⟩
  rw [hw]
  simp only [calcLocDelta, c2, m2, Option.bind_some, f3, g3, h1, h2] at hc
  have hb : d = ⟨lang, (linesOf xs₂ .lcode : Int) - c, (linesOf xs₁ .lcode : Int) - c, (linesOf xs₂ .lcomment : Int) - m,
      (linesOf xs₁ .lcomment : Int) - m, max 0 ((linesOf xs₂ .lblank : Int) - linesOf xs₁ .lblank),
      max 0 ((linesOf xs₁ .lblank : Int) - linesOf xs₂ .lblank)⟩ := by
    split at hc
    · rw [← Option.some.inj hc]
      congr 1 <;> omega
    · rw [← Option.some.inj hc]
      congr 1 <;> omega
  rw [hb]

theorem lcs_of_sublist {α : Type} {a b : List α} {k : Nat} (h : a.Sublist b) (hk : IsLCS a b k) : k = a.length := by
  obtain ⟨⟨s, h1, _, rfl⟩, h3⟩ := hk
  have := h3 a (List.Sublist.refl a) h
  have := h1.length_le
  omega

theorem lcs_comm {α : Type} {a b : List α} {k : Nat} (hk : IsLCS a b k) : IsLCS b a k := by
  obtain ⟨⟨s, h1, h2, h⟩, h3⟩ := hk
  exact ⟨⟨s, h2, h1, h⟩, fun s h1 h2 => h3 s h2 h1⟩

/-- C110: if lines are only put in, none counts as removed, and the lines added are the lines put in. -/
theorem C110_added (mc : Host) (ext : Bytes → Bytes → Option Bytes) (junk : Junk) (before : Byte) (disk : Disk)
    (p₁ p₂ : List Byte) (lang : String) (xs₁ xs₂ : List (Nat × Nat × Kind)) (k₁ : Known disk p₁ lang xs₁) (k₂ : Known disk p₂ lang xs₂)
    (t₁ t₂ : List Byte) (d₁ : disk p₁ = some t₁) (d₂ : disk p₂ = some t₂) (z₁ : (0 : Byte) ∉ t₁) (z₂ : (0 : Byte) ∉ t₂)
    (o₁ : Ordinary t₁ xs₁) (o₂ : Ordinary t₂ xs₂) (s₁ : Short t₁ xs₁) (s₂ : Short t₂ xs₂) (hh : Hashed t₂ xs₂) (hx : xs₁ ≠ [] ∨ xs₂ ≠ [])
    (hc : (bareLines t₁ xs₁ .lcode).Sublist (bareLines t₂ xs₂ .lcode))
    (hm : (bareLines t₁ xs₁ .lcomment).Sublist (bareLines t₂ xs₂ .lcomment)) (hb : linesOf xs₁ .lblank ≤ linesOf xs₂ .lblank) :
    ∃ w, (twoFiles before disk p₁ p₂).step (library mc) ext junk (.diff 0 1) = some (w, .deltas [⟨lang,
      (linesOf xs₂ .lcode : Int) - linesOf xs₁ .lcode, 0, (linesOf xs₂ .lcomment : Int) - linesOf xs₁ .lcomment, 0,
      (linesOf xs₂ .lblank : Int) - linesOf xs₁ .lblank, 0⟩]) := by
  obtain ⟨w, c, m, h1, h2, h3⟩ := C110_least mc ext junk before disk p₁ p₂ lang xs₁ xs₂ k₁ k₂ t₁ t₂ d₁ d₂ z₁ z₂ o₁ o₂ s₁ s₂ hh hx
  have e2 := lcs_of_sublist (hc.map lineHash) h2
  have e3 := lcs_of_sublist (hm.map lineHash) h3
  rw [List.length_map, bareLines_length] at e2 e3
  subst e2 e3
  refine ⟨w, h1.trans ?_⟩
  rw [Int.sub_self, Int.sub_self, show max 0 ((linesOf xs₂ .lblank : Int) - linesOf xs₁ .lblank) = (linesOf xs₂ .lblank : Int) - linesOf xs₁ .lblank by omega,
    show max 0 ((linesOf xs₁ .lblank : Int) - linesOf xs₂ .lblank) = 0 by omega]

/-- C110: if lines are only taken out, none counts as added, and the lines removed are the lines taken out. -/
theorem C110_removed (mc : Host) (ext : Bytes → Bytes → Option Bytes) (junk : Junk) (before : Byte) (disk : Disk)
    (p₁ p₂ : List Byte) (lang : String) (xs₁ xs₂ : List (Nat × Nat × Kind)) (k₁ : Known disk p₁ lang xs₁) (k₂ : Known disk p₂ lang xs₂)
    (t₁ t₂ : List Byte) (d₁ : disk p₁ = some t₁) (d₂ : disk p₂ = some t₂) (z₁ : (0 : Byte) ∉ t₁) (z₂ : (0 : Byte) ∉ t₂)
    (o₁ : Ordinary t₁ xs₁) (o₂ : Ordinary t₂ xs₂) (s₁ : Short t₁ xs₁) (s₂ : Short t₂ xs₂) (hh : Hashed t₂ xs₂) (hx : xs₁ ≠ [] ∨ xs₂ ≠ [])
    (hc : (bareLines t₂ xs₂ .lcode).Sublist (bareLines t₁ xs₁ .lcode))
    (hm : (bareLines t₂ xs₂ .lcomment).Sublist (bareLines t₁ xs₁ .lcomment)) (hb : linesOf xs₂ .lblank ≤ linesOf xs₁ .lblank) :
    ∃ w, (twoFiles before disk p₁ p₂).step (library mc) ext junk (.diff 0 1) = some (w, .deltas [⟨lang,
      0, (linesOf xs₁ .lcode : Int) - linesOf xs₂ .lcode, 0, (linesOf xs₁ .lcomment : Int) - linesOf xs₂ .lcomment,
      0, (linesOf xs₁ .lblank : Int) - linesOf xs₂ .lblank⟩]) := by
  obtain ⟨w, c, m, h1, h2, h3⟩ := C110_least mc ext junk before disk p₁ p₂ lang xs₁ xs₂ k₁ k₂ t₁ t₂ d₁ d₂ z₁ z₂ o₁ o₂ s₁ s₂ hh hx
  have e2 := lcs_of_sublist (hc.map lineHash) (lcs_comm h2)
  have e3 := lcs_of_sublist (hm.map lineHash) (lcs_comm h3)
  rw [List.length_map, bareLines_length] at e2 e3
  subst e2 e3
  refine ⟨w, h1.trans ?_⟩
  rw [Int.sub_self, Int.sub_self, show max 0 ((linesOf xs₂ .lblank : Int) - linesOf xs₁ .lblank) = 0 by omega,
    show max 0 ((linesOf xs₁ .lblank : Int) - linesOf xs₂ .lblank) = (linesOf xs₁ .lblank : Int) - linesOf xs₂ .lblank by omega]

/-! ### Pieces -/

/-- The lines of two texts, the first of which is a piece. -/
theorem lines_append {L : Lexis} (h : L.flat = true) {T : List Byte} (hT : L.Piece T) (X : List Byte) :
    L.lines (T ++ X) = L.lines T ++ (L.lines X).map fun x => (T.length + x.1, T.length + x.2.1, x.2.2) := by
  have hlast := lastStart_piece hT.1
  have hk : L.lineKind T (lastStart T) T.length = .lblank := by
    unfold Lexis.lineKind
    rw [hlast, Nat.sub_self, List.take_zero]; rfl
  have hT0 : L.lines T = (terminated T).map fun x => (x.1, x.2, L.lineKind T x.1 x.2) := by
    unfold Lexis.lines
    simp only [hk]
    simp
  rw [hT0]
  unfold Lexis.lines
  rw [terminated_append hT.1, lastStart_append hT.1, List.length_append, lineKind_right h hT, List.map_append, List.map_append,
    List.map_map, List.map_map, List.append_assoc]
  congr 1
  · refine List.map_congr_left fun x hx => ?_
    have := (terminated_facts T).2 x hx
    rw [hlast] at this
    rw [lineKind_left h hT X this.1]
  · congr 1
    · exact List.map_congr_left fun x _ => by simp only [Function.comp_def, lineKind_right h hT X x.1 x.2]
    · simp only
      split <;> rfl

theorem kindLines_append {L : Lexis} (h : L.flat = true) {T : List Byte} (hT : L.Piece T) (X : List Byte) (k : Kind) :
    kindLines (T ++ X) (L.lines (T ++ X)) k = kindLines T (L.lines T) k ++ kindLines X (L.lines X) k := by
  have hlast := lastStart_piece hT.1
  unfold kindLines
  rw [lines_append h hT, List.filter_append, List.map_append]
  congr 1
  · refine List.map_congr_left fun x hx => ?_
    have hx := (List.mem_filter.1 hx).1
    have : x.2.1 ≤ T.length := by
      unfold Lexis.lines at hx
      rcases List.mem_append.1 hx with hx | hx
      · obtain ⟨y, hy, rfl⟩ := List.mem_map.1 hx
        have := (terminated_facts T).2 y hy
        rw [hlast] at this; exact this.1
      · simp only at hx
        split at hx
        · cases hx
        · rw [List.mem_singleton.1 hx]; exact Nat.le_refl _
    rw [List.take_append_of_le_length this]
  · rw [List.filter_map, List.map_map]
    refine List.map_congr_left fun x _ => ?_
    simp only [Function.comp_def]
    rw [List.take_length_add_append, List.drop_length_add_append]

theorem bareLines_append {L : Lexis} (h : L.flat = true) {T : List Byte} (hT : L.Piece T) (X : List Byte) (k : Kind) :
    bareLines (T ++ X) (L.lines (T ++ X)) k = bareLines T (L.lines T) k ++ bareLines X (L.lines X) k := by
  unfold bareLines
  rw [kindLines_append h hT, List.map_append]

theorem linesOf_append {L : Lexis} (h : L.flat = true) {T : List Byte} (hT : L.Piece T) (X : List Byte) (k : Kind) :
    linesOf (L.lines (T ++ X)) k = linesOf (L.lines T) k + linesOf (L.lines X) k := by
  rw [← bareLines_length (T ++ X), bareLines_append h hT, List.length_append, bareLines_length, bareLines_length]

theorem lines_ne {L : Lexis} {N : List Byte} (hN : L.Piece N) (hn : N ≠ []) : L.lines N ≠ [] := by
  have hl := hN.1.resolve_left hn
  have hlast := lastStart_piece hN.1
  intro e
  unfold Lexis.lines at e
  obtain ⟨e, -⟩ := List.append_eq_nil_iff.1 e
  have e := List.map_eq_nil_iff.1 e
  unfold lastStart at hlast
  unfold terminated at e
  cases hx : lineEnds N with
  | nil =>
    rw [hx] at hlast
    exact hn (List.length_eq_zero_iff.1 hlast.symm)
  | cons x xs => rw [hx] at e; cases e

theorem no_nul {A N B : List Byte} (h : (0 : Byte) ∉ A ++ (N ++ B)) : (0 : Byte) ∉ A ++ B := by
  simp only [List.mem_append, not_or] at h ⊢
  exact ⟨h.1, h.2.2⟩

theorem between {disk : Disk} {P : Parser} {L : Lexis} (hP : (P, L) ∈ classified) (hT : (bytes P.lang, P.name) ∈ Tables.parsers)
    {p₁ p₂ : Bytes} (n₁ : Named P.lang p₁) (n₂ : Named P.lang p₂) {A N B : List Byte} (hA : L.Piece A ∧ Plain A) (hN : L.Piece N ∧ Plain N)
    (hB : L.WellFormed B ∧ Plain B) (d₁ : disk p₁ = some (A ++ B)) (d₂ : disk p₂ = some (A ++ (N ++ B))) (l : Leftover) :
    Known disk p₁ P.lang (L.lines (A ++ B)) ∧ Known disk p₂ P.lang (L.lines (A ++ (N ++ B))) ∧
    (N ≠ [] → L.lines (A ++ (N ++ B)) ≠ []) ∧
    (∀ k, linesOf (L.lines (A ++ (N ++ B))) k = linesOf (L.lines (A ++ B)) k + (reported P l N).count k) ∧
    ∀ k, (bareLines (A ++ B) (L.lines (A ++ B)) k).Sublist (bareLines (A ++ (N ++ B)) (L.lines (A ++ (N ++ B))) k) := by
  have hf : L.flat = true := classified_flat _ hP
  have hw := (wellFormed_append hf hN.1 B).2 hB.1
  have hp := plain_append hN.2 hB.2
  obtain ⟨stem₁, e₁, g1, g2⟩ := n₁
  obtain ⟨stem₂, e₂, g3, g4⟩ := n₂
  refine ⟨Known.lexis stem₁ e₁ P L _ g1 g2 hP hT d₁ (plain_append hA.2 hB.2) ((wellFormed_append hf hA.1 B).2 hB.1),
    Known.lexis stem₂ e₂ P L _ g3 g4 hP hT d₂ (plain_append hA.2 hp) ((wellFormed_append hf hA.1 _).2 hw), ?_, ?_, ?_⟩
  · intro hn e
    rw [lines_append hf hA.1, lines_append hf hN.1] at e
    have e := (List.append_eq_nil_iff.1 e).2
    rw [List.map_eq_nil_iff] at e
    exact lines_ne hN.1 hn (List.append_eq_nil_iff.1 e).1
  · intro k
    rw [linesOf_append hf hA.1, linesOf_append hf hN.1, linesOf_append hf hA.1, reported_eq hP l hN.2 (piece_wellFormed hN.1)]
    have : linesOf (L.lines N) k = (L.kinds N).count k := linesOf_count _ _
    omega
  · intro k
    rw [bareLines_append hf hA.1 B, bareLines_append hf hA.1 (N ++ B), bareLines_append hf hN.1]
    exact (List.Sublist.refl _).append (List.sublist_append_right _ _)

/-- C110: a piece of text that is put into a file between two others counts as added with the lines that a parser reports for it, and
nothing counts as removed. -/
theorem C110_inserted (mc : Host) (ext : Bytes → Bytes → Option Bytes) (junk : Junk) (before : Byte) (disk : Disk) (P : Parser) (L : Lexis)
    (hP : (P, L) ∈ classified) (hT : (bytes P.lang, P.name) ∈ Tables.parsers) (p₁ p₂ : Bytes) (n₁ : Named P.lang p₁) (n₂ : Named P.lang p₂)
    (A N B : List Byte) (hA : L.Piece A ∧ Plain A) (hN : L.Piece N ∧ Plain N) (hB : L.WellFormed B ∧ Plain B)
    (d₁ : disk p₁ = some (A ++ B)) (d₂ : disk p₂ = some (A ++ (N ++ B))) (o₁ : Ordinary (A ++ B) (L.lines (A ++ B)))
    (o₂ : Ordinary (A ++ (N ++ B)) (L.lines (A ++ (N ++ B)))) (s₁ : Short (A ++ B) (L.lines (A ++ B)))
    (s₂ : Short (A ++ (N ++ B)) (L.lines (A ++ (N ++ B)))) (hh : Hashed (A ++ (N ++ B)) (L.lines (A ++ (N ++ B)))) (hn : N ≠ [])
    (h0 : (0 : Byte) ∉ A ++ (N ++ B)) (l : Leftover) :
    ∃ w, (twoFiles before disk p₁ p₂).step (library mc) ext junk (.diff 0 1) = some (w, .deltas [⟨P.lang,
      (reported P l N).count .lcode, 0, (reported P l N).count .lcomment, 0, (reported P l N).count .lblank, 0⟩]) := by
  obtain ⟨k₁, k₂, hl, hc, hs⟩ := between hP hT n₁ n₂ hA hN hB d₁ d₂ l
  have h := C110_added mc ext junk before disk p₁ p₂ P.lang _ _ k₁ k₂ _ _ d₁ d₂ (no_nul h0) h0
    o₁ o₂ s₁ s₂ hh (.inr (hl hn)) (hs .lcode) (hs .lcomment) (by rw [hc]; omega)
  have e : ∀ a b : Nat, (((a + b : Nat) : Int)) - a = b := fun a b => by omega
  simp only [hc, e] at h
  exact h

/-- C110: a piece of text that is taken out of a file counts as removed with the lines that a parser reports for it, and nothing counts
as added. -/
theorem C110_deleted (mc : Host) (ext : Bytes → Bytes → Option Bytes) (junk : Junk) (before : Byte) (disk : Disk) (P : Parser) (L : Lexis)
    (hP : (P, L) ∈ classified) (hT : (bytes P.lang, P.name) ∈ Tables.parsers) (p₁ p₂ : Bytes) (n₁ : Named P.lang p₁) (n₂ : Named P.lang p₂)
    (A N B : List Byte) (hA : L.Piece A ∧ Plain A) (hN : L.Piece N ∧ Plain N) (hB : L.WellFormed B ∧ Plain B)
    (d₁ : disk p₁ = some (A ++ B)) (d₂ : disk p₂ = some (A ++ (N ++ B))) (o₁ : Ordinary (A ++ B) (L.lines (A ++ B)))
    (o₂ : Ordinary (A ++ (N ++ B)) (L.lines (A ++ (N ++ B)))) (s₁ : Short (A ++ B) (L.lines (A ++ B)))
    (s₂ : Short (A ++ (N ++ B)) (L.lines (A ++ (N ++ B)))) (hh : Hashed (A ++ B) (L.lines (A ++ B))) (hn : N ≠ [])
    (h0 : (0 : Byte) ∉ A ++ (N ++ B)) (l : Leftover) :
    ∃ w, (twoFiles before disk p₂ p₁).step (library mc) ext junk (.diff 0 1) = some (w, .deltas [⟨P.lang,
      0, (reported P l N).count .lcode, 0, (reported P l N).count .lcomment, 0, (reported P l N).count .lblank⟩]) := by
  obtain ⟨k₁, k₂, hl, hc, hs⟩ := between hP hT n₁ n₂ hA hN hB d₁ d₂ l
  have h := C110_removed mc ext junk before disk p₂ p₁ P.lang _ _ k₂ k₁ _ _ d₂ d₁ h0 (no_nul h0)
    o₂ o₁ s₂ s₁ hh (.inl (hl hn)) (hs .lcode) (hs .lcomment) (by rw [hc]; omega)
  have e : ∀ a b : Nat, (((a + b : Nat) : Int)) - a = b := fun a b => by omega
  simp only [hc, e] at h
  exact h

/-! ### Cases -/

theorem ordinary_of {text : List Byte} {xs : List (Nat × Nat × Kind)} (h1 : ∀ e ∈ List.range (text.length + 1), lineEnd text e = true → text[e - 1]? = some 10)
    (h2 : ∀ x ∈ xs, x.2.2 ≠ .lblank → ∃ b ∈ (text.take x.2.1).drop x.1, b ≠ 32 ∧ b ≠ 9 ∧ b ≠ 10) : Ordinary text xs :=
  ⟨fun e he => h1 e (by have := mem_lineEnds.2 he; unfold lineEnds at this; exact (List.mem_filter.1 this).1) he, h2⟩

/-- Lines of at most 1000 bytes, all of them ASCII, do not have the hash value 0. -/
theorem hashed_ascii {text : List Byte} {xs : List (Nat × Nat × Kind)} (h : ∀ b ∈ text, b.toNat < 128)
    (hl : ∀ k, ∀ l ∈ nonEmptyLines (kindLines text xs k).flatten, l.length ≤ 1000) : Hashed text xs := by
  have key : ∀ k, NoZeroHash (kindLines text xs k).flatten := by
    intro k l hm
    refine C21_ascii_hash_nonzero l (fun b hb => h b ?_) (hl k l hm)
    obtain ⟨u, hu, hb⟩ := List.mem_flatten.1 (mem_nonEmptyLines hm b hb)
    obtain ⟨x, -, rfl⟩ := List.mem_map.1 hu
    exact List.mem_of_mem_take (List.mem_of_mem_drop ((List.dropWhile_sublist _).subset hb))
  exact ⟨key _, key _⟩

/-- The hypotheses of `C110_inserted` are met by a Java file into which a comment, a blank line and a line of code are put. -/
example :
    let A := bytes "class X {\n"
    let N := bytes "  /* a\n \" */\n\n  int x; // b\n"
    let B := bytes "}\n"
    let L := LexisTable.java_line
    (parse_java, L) ∈ classified ∧ (bytes parse_java.lang, parse_java.name) ∈ Tables.parsers ∧ Named parse_java.lang (bytes "a.java") ∧
    (L.Piece A ∧ Plain A) ∧ (L.Piece N ∧ Plain N) ∧ (L.WellFormed B ∧ Plain B) ∧
    Ordinary (A ++ B) (L.lines (A ++ B)) ∧ Ordinary (A ++ (N ++ B)) (L.lines (A ++ (N ++ B))) ∧ Short (A ++ B) (L.lines (A ++ B)) ∧
    Short (A ++ (N ++ B)) (L.lines (A ++ (N ++ B))) ∧ Hashed (A ++ (N ++ B)) (L.lines (A ++ (N ++ B))) ∧ Hashed (A ++ B) (L.lines (A ++ B)) ∧
    N ≠ [] ∧ (0 : Byte) ∉ A ++ (N ++ B) ∧ reported parse_java {} N = [.lcomment, .lcomment, .lblank, .lcode] := by
  intro A N B L
  refine ⟨by simp [classified, L], by decide +kernel, ⟨bytes "a", bytes "java", by decide +kernel, by decide +kernel⟩, by decide +kernel, by decide +kernel,
    by decide +kernel, ordinary_of (by decide +kernel) (by decide +kernel), ordinary_of (by decide +kernel) (by decide +kernel),
    ⟨by decide +kernel, by decide +kernel⟩, ⟨by decide +kernel, by decide +kernel⟩, ?_, ?_, by decide +kernel, by decide +kernel, by decide +kernel⟩
  · unfold Hashed NoZeroHash; decide +kernel
  · unfold Hashed NoZeroHash; decide +kernel

/-- C110: a carriage return before the line feed is part of the line that is compared. A file and the same file with other line ends
have the same counts (C107), but a line that is changed in this way counts as added and as removed. -/
theorem C110_line_ends (mc : Host) (ext : Bytes → Bytes → Option Bytes) (junk : Junk) (before : Byte) :
    ∃ w, (twoFiles before (fun p => if p = bytes "a.java" then some (bytes "int x;\n// a\n") else if p = bytes "b.java" then some (bytes "int x;\r\n// a\r\n") else none)
      (bytes "a.java") (bytes "b.java")).step (library mc) ext junk (.diff 0 1) = some (w, .deltas [⟨"java", 1, 1, 1, 1, 0, 0⟩]) := by
  have hP : (parse_java, LexisTable.java_line) ∈ classified := by simp [classified]
  have hT : (bytes parse_java.lang, parse_java.name) ∈ Tables.parsers := by decide +kernel
  have e₁ : LexisTable.java_line.lines (bytes "int x;\n// a\n") = [(0, 7, .lcode), (7, 12, .lcomment)] := by decide +kernel
  have e₂ : LexisTable.java_line.lines (bytes "int x;\r\n// a\r\n") = [(0, 8, .lcode), (8, 14, .lcomment)] := by decide +kernel
  have k₁ := Known.lexis (disk := fun p => if p = bytes "a.java" then some (bytes "int x;\n// a\n") else if p = bytes "b.java" then some (bytes "int x;\r\n// a\r\n") else none)
    (path := bytes "a.java") (bytes "a") (bytes "java") parse_java LexisTable.java_line (bytes "int x;\n// a\n") (by decide +kernel) (by decide +kernel) hP hT
    (by decide +kernel) (by decide +kernel) (by decide +kernel)
  have k₂ := Known.lexis (disk := fun p => if p = bytes "a.java" then some (bytes "int x;\n// a\n") else if p = bytes "b.java" then some (bytes "int x;\r\n// a\r\n") else none)
    (path := bytes "b.java") (bytes "b") (bytes "java") parse_java LexisTable.java_line (bytes "int x;\r\n// a\r\n") (by decide +kernel) (by decide +kernel) hP hT
    (by decide +kernel) (by decide +kernel) (by decide +kernel)
  rw [e₁] at k₁
  rw [e₂] at k₂
  obtain ⟨w, c, m, h1, h2, h3⟩ := C110_least mc ext junk before _ _ _ _ _ _ k₁ k₂ (bytes "int x;\n// a\n") (bytes "int x;\r\n// a\r\n") (by decide +kernel)
    (by decide +kernel) (by decide +kernel) (by decide +kernel) (ordinary_of (by decide +kernel) (by decide +kernel))
    (ordinary_of (by decide +kernel) (by decide +kernel)) ⟨by decide +kernel, by decide +kernel⟩ ⟨by decide +kernel, by decide +kernel⟩
    (by unfold Hashed NoZeroHash; decide +kernel) (.inl (by simp))
  have none_common : ∀ {x y : Int} {k : Nat}, x ≠ y → IsLCS [x] [y] k → k = 0 := by
    rintro x y k hne ⟨⟨s, g1, g2, g3⟩, -⟩
    cases s with
    | nil => exact g3.symm
    | cons a s =>
      have h1 := List.mem_singleton.1 (g1.subset (.head _))
      have h2 := List.mem_singleton.1 (g2.subset (.head _))
      exact absurd (h1.symm.trans h2) hne
  have hc : c = 0 := by
    refine none_common (x := lineHash (bytes "int x;")) (y := lineHash (bytes "int x;\r")) (by decide +kernel) ?_
    exact h2
  have hm : m = 0 := by
    refine none_common (x := lineHash (bytes "// a")) (y := lineHash (bytes "// a\r")) (by decide +kernel) ?_
    exact h3
  subst hc hm
  exact ⟨w, h1⟩

end Ohcount.LibraryProps
