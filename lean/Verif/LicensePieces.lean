import Verif.LicenseMore

/-!
The entries of the license table that are found by longer passages than a name (C98): the
versions 3 of the GPL and the LGPL, Eiffel 2, Lucent Plan 9, and the licenses that are like
Apache's or BSD's; and what the exclusions of three entries exclude (C98, C99).
-/

namespace Ohcount.Licenses

open Ohcount Ohcount.Pcre Ohcount.Diff

/-! ### Passages -/

/-- A piece of a passage. -/
inductive Piece
  /-- these characters, in either case -/
  | folded (s : List Char)
  /-- these characters -/
  | exact (s : List Char)
  /-- white space, so many bytes -/
  | spaces (lo : Nat) (hi : Option Nat)
  /-- any bytes, so many -/
  | bytes (lo : Nat) (hi : Option Nat)
  /-- bytes other than line feeds, so many -/
  | inLine (lo : Nat) (hi : Option Nat)
  /-- any number of these characters in either case; `_` stands for white space -/
  | among (s : List Char)
  /-- so many letters, digits, underscores and bytes of `extra` -/
  | name (extra : List Char) (lo : Nat) (hi : Option Nat)
  /-- one of these characters -/
  | oneOf (s : List Char)
  /-- the start or the end of a word -/
  | edge
  /-- the start of a line -/
  | newLine
  deriving DecidableEq, Repr

/-- So many. -/
def Within (lo : Nat) (hi : Option Nat) (n : Nat) : Prop := lo ≤ n ∧ ∀ h, hi = some h → n ≤ h

/-- The stretch `m`, between `before` and `after`, is the piece. -/
def Piece.Is (vt : Bool) (before m after : Bytes) : Piece → Prop
  | .folded s => m.map lower = (textOf s).map lower
  | .exact s => m = textOf s
  | .spaces lo hi => Within lo hi m.length ∧ ∀ x ∈ m, isSpace vt x = true
  | .bytes lo hi => Within lo hi m.length
  | .inLine lo hi => Within lo hi m.length ∧ 10 ∉ m
  | .among s => ∀ x ∈ m, ∃ c ∈ s, if c = '_' then isSpace vt x = true else lower x = lower (byteOf c)
  | .name extra lo hi => Within lo hi m.length ∧ ∀ x ∈ m, isWord x = true ∨ x ∈ textOf extra
  | .oneOf s => ∃ x ∈ textOf s, m = [x]
  | .edge => m = [] ∧ endsWord before ≠ startsWord after
  | .newLine => m = [] ∧ (before = [] ∨ before.getLast? = some 10 ∧ after ≠ [])

/-- The stretch `m`, between `before` and `after`, consists of the pieces. -/
def Composed (vt : Bool) : List Piece → Bytes → Bytes → Bytes → Prop
  | [], _, m, _ => m = []
  | p :: ps, before, m, after => ∃ m1 m2, m = m1 ++ m2 ∧ p.Is vt before m1 (m2 ++ after) ∧
      Composed vt ps (before ++ m1) m2 after

/-- Somewhere in the text there is such a passage. -/
def Has (vt : Bool) (ps : List Piece) (t : Bytes) : Prop :=
  ∃ before m after, t = before ++ (m ++ after) ∧ Composed vt ps before m after

/-! ### The passages of the table -/

/-- `GNU General Public License` or `GNU GPL`, and at most 100 bytes later `version 3`
or `v3`. -/
def gpl3Passages : List (List Piece) :=
  [chars!"GNU General Public License", chars!"GNU GPL"].flatMap fun n =>
    [chars!"Version 3", chars!"v3"].map fun v => [.folded n, .bytes 0 (some 100), .folded v]

/-- The names of the LGPL. -/
def lgplNames : List (List Piece) :=
  [[.edge, .folded chars!"lgpl", .edge]] ++
  ([chars!"library", chars!"lesser"].flatMap fun l =>
    [[.folded chars!"general", .spaces 0 none], []].flatMap fun g =>
    [[.folded chars!"public", .spaces 0 none], []].map fun p =>
      [.edge, .folded chars!"gnu", .spaces 0 none, .folded l, .spaces 0 none] ++ g ++ p ++
        [.folded chars!"license", .edge]) ++
  [chars!"lesser", chars!"library"].map fun l =>
    [.edge, .folded l, .spaces 0 none, .folded chars!"gpl", .edge]

/-- A name of the LGPL, and in the same line 3 or 3.0, with no more between them than three
gaps of at most ten bytes, the publisher and the word `version`. -/
def lgpl3Passages : List (List Piece) :=
  lgplNames.flatMap fun n =>
    [[.edge, .folded chars!"as published by the free software foundation", .edge], []].flatMap fun f =>
    [[.edge, .folded chars!"version", .edge], []].flatMap fun v =>
    [chars!"3.0", chars!"3"].map fun d =>
      n ++ [.inLine 0 (some 10)] ++ f ++ [.inLine 0 (some 10)] ++ v ++ [.inLine 0 (some 10)] ++
        [.edge, .folded d, .edge]

/-- The passage that the licenses like BSD's have in common up to the list of conditions. -/
def bsdHead (years between : Nat × Nat) : List Piece :=
  [.exact chars!"Copyright", .spaces 1 (some 1), .bytes 1 (some years.2),
   .exact chars!"All rights reserved", .bytes between.1 (some between.2),
   .exact chars!"Redistribution and use in source and binary forms, with or without",
   .bytes 0 (some 20),
   .exact chars!"modification, are permitted provided that the following conditions",
   .bytes 0 (some 20), .spaces 1 (some 1), .exact chars!"are met"]

/-- The license text with three clauses. -/
def bsdPassages : List (List Piece) :=
  [chars!"The name of the author may not", chars!"The name of the contributors may not",
   chars!"The names of the author may not", chars!"The names of the contributors may not",
   chars!"Neither the name of the"].map fun who =>
    bsdHead (1, 40) (0, 40) ++
    [.bytes 1 (some 40), .exact chars!"Redistributions of source code must retain the above copyright",
     .spaces 1 (some 1), .bytes 0 none,
     .exact chars!"notice, this list of conditions and the following disclaimer.",
     .spaces 1 none, .bytes 0 none,
     .exact chars!"Redistributions in binary form must reproduce the above", .bytes 0 none,
     .exact chars!"copyright", .spaces 1 none, .bytes 0 (some 10),
     .exact chars!"notice, this list of conditions and the following", .bytes 0 none,
     .exact chars!"disclaimer in the", .spaces 1 none, .bytes 0 none,
     .exact chars!"documentation", .bytes 0 none, .exact who, .bytes 0 none,
     .exact chars!"be used to endorse or promote", .spaces 1 none, .bytes 0 none,
     .exact chars!"products", .spaces 1 none, .bytes 0 none,
     .exact chars!"derived", .spaces 1 none, .bytes 0 none,
     .exact chars!"from this software without specific prior written", .spaces 1 none, .bytes 0 none,
     .exact chars!"permission", .bytes 0 none, .exact chars!"HOWEVER", .spaces 1 none, .bytes 0 none,
     .exact chars!"CAUSED AND ON ANY", .bytes 0 none,
     .exact chars!"THEORY OF LIABILITY, WHETHER IN CONTRACT"]

/-- The license text with two clauses. After `disclaimer` there may be any byte for the
full stop. -/
def bsd2Passages : List (List Piece) :=
  [bsdHead (1, 60) (1, 40) ++
    [.bytes 0 (some 20), .spaces 1 (some 20), .bytes 0 (some 20),
     .exact chars!"Redistributions of source code must retain the above copyright",
     .spaces 1 none, .bytes 0 none,
     .exact chars!"notice, this list of conditions and the following disclaimer", .bytes 1 (some 1),
     .spaces 1 none, .bytes 0 none,
     .exact chars!"Redistributions in binary form must reproduce the above copyright",
     .spaces 1 none, .bytes 0 none,
     .exact chars!"notice, this list of conditions and the following disclaimer in the",
     .spaces 1 none, .bytes 0 none,
     .exact chars!"documentation and/or other materials provided with the distribution.",
     .spaces 1 none, .bytes 0 none, .exact chars!"HOWEVER CAUSED AND ON ANY", .bytes 0 none,
     .exact chars!"THEORY OF LIABILITY, WHETHER IN CONTRACT"]]

/-- The passages by which entries of the table are found. -/
def passages : List (String × List (List Piece)) := [
  ("eiffel_2", [[.edge, .folded chars!"eiffel", .spaces 0 none, .folded chars!"forum", .spaces 0 none,
      .folded chars!"license ", .among chars!",V_", .folded chars!"2"]]),
  ("gpl3", gpl3Passages),
  ("lgpl3", lgpl3Passages),
  ("lucent_plan9", [[.edge, .folded chars!"lucent", .spaces 0 none, .folded chars!"public", .spaces 0 none,
      .folded chars!"license", .among chars!"_(", .folded chars!"plan9"]]),
  ("apache_ish", [chars!"apache-style", chars!"apache-like"].map fun s =>
      [.edge, .folded s, .inLine 0 none, .folded chars!"license", .edge]),
  ("bsd_ish", bsdPassages),
  ("bsd_2clause_ish", bsd2Passages)]

/-- What must not be in the stretch found for the GPL 3: the words about later versions, and
the name twice in a line. -/
def gpl3Exclusions : List (List Piece) :=
  [[.folded chars!"at your option any later version"],
   [.folded chars!"General Public License", .inLine 0 none, .folded chars!"General Public License"]]

/-- The passages that must not be in the found stretch. -/
def exclusions : List (String × List (List Piece)) := [
  ("gpl3", gpl3Exclusions),
  ("bsd_ish", [[.exact chars!"The Regents of the University of California"]]),
  ("bsd_2clause_ish", [[.exact chars!"The Regents of the University of California"],
      [.exact chars!"used to endorse or promote", .spaces 1 none, .bytes 0 none, .exact chars!"products",
       .spaces 1 none, .bytes 0 none, .exact chars!"prior", .spaces 1 none, .bytes 0 none,
       .exact chars!"written", .spaces 1 none, .bytes 0 none, .exact chars!"permission."]])]

/-! ### Passages and expressions -/

/-- The member of a class for a character of `Piece.among`. -/
def amongAtom (c : Char) : Atom := if c = '_' then .space else charAtom true c

/-- The expression for a number of bytes of a class. -/
def manyRx (c : List Atom) (lo : Nat) (hi : Option Nat) : List Rx :=
  if lo = 1 ∧ hi = some 1 then [.set c] else [.rep c lo hi]

/-- The expression for a piece. -/
def Piece.rx : Piece → List Rx
  | .folded s => s.map fun c => .set [charAtom true c]
  | .exact s => s.map fun c => .set [charAtom false c]
  | .spaces lo hi => manyRx [.space] lo hi
  | .bytes lo hi => manyRx [.dot true] lo hi
  | .inLine lo hi => manyRx [.dot false] lo hi
  | .among s => [.rep (s.map amongAtom) 0 none]
  | .name extra lo hi => manyRx (.word :: extra.map (charAtom false)) lo hi
  | .oneOf s => [.set (s.map (charAtom false))]
  | .edge => [.bound]
  | .newLine => [.lineStart]

theorem get_split (b s : Bytes) : (b ++ s)[b.length]? = s.head? := by
  rw [List.getElem?_append_right (Nat.le_refl _)]; simp [List.head?_eq_getElem?]

theorem set_split (vt : Bool) (c : List Atom) (b s : Bytes) (j : Nat) :
    Matches vt (b ++ s) (.set c) b.length j ↔
      ∃ x r, s = x :: r ∧ j = b.length + 1 ∧ inClass vt c x = true := by
  simp only [Matches, get_split]
  cases s with
  | nil => simp
  | cons y r => simp [and_comm]

theorem rep_split (vt : Bool) (c : List Atom) (lo : Nat) (hi : Option Nat) (b s : Bytes) (j : Nat) :
    Matches vt (b ++ s) (.rep c lo hi) b.length j ↔
      ∃ m a, s = m ++ a ∧ j = b.length + m.length ∧ Within lo hi m.length ∧
        ∀ x ∈ m, inClass vt c x = true := by
  constructor
  · intro h
    have hj := h.inside (by simp)
    obtain ⟨n, rfl, h1, h2, h3⟩ := h
    have hl : (s.take n).length = n := by
      rw [List.length_take]; simp only [List.length_append] at hj; omega
    refine ⟨s.take n, s.drop n, (List.take_append_drop n s).symm, by omega, ⟨by omega, fun h e => ?_⟩,
      fun x hx => ?_⟩
    · rw [hl]; exact h2 h e
    · obtain ⟨p, hp, rfl⟩ := List.mem_iff_getElem.mp hx
      obtain ⟨y, hy, hc⟩ := h3 (b.length + p) (by omega) (by omega)
      rw [List.getElem?_append_right (by omega)] at hy
      simp only [Nat.add_sub_cancel_left] at hy
      have : s[p]? = some (s.take n)[p] := by
        rw [← List.getElem?_take_of_lt (j := n) (by omega)]
        exact List.getElem?_eq_getElem hp
      rw [this] at hy; cases hy; exact hc
  · rintro ⟨m, a, rfl, rfl, ⟨h1, h2⟩, h3⟩
    refine ⟨m.length, rfl, h1, h2, fun p hp1 hp2 => ?_⟩
    have hp : p - b.length < m.length := by omega
    refine ⟨m[p - b.length], ?_, h3 _ (List.getElem_mem hp)⟩
    rw [List.getElem?_append_right hp1, List.getElem?_append_left hp]
    exact List.getElem?_eq_getElem hp

theorem many_split (vt : Bool) (c : List Atom) (lo : Nat) (hi : Option Nat) (b s : Bytes) (j : Nat) :
    InRow vt (b ++ s) (manyRx c lo hi) b.length j ↔
      ∃ m a, s = m ++ a ∧ j = b.length + m.length ∧ Within lo hi m.length ∧
        ∀ x ∈ m, inClass vt c x = true := by
  unfold manyRx
  split
  · rename_i h
    obtain ⟨rfl, rfl⟩ := h
    rw [inRow_one, set_split]
    constructor
    · rintro ⟨x, r, rfl, rfl, hc⟩
      exact ⟨[x], r, rfl, rfl, ⟨Nat.le_refl _, fun h e => by cases e; exact Nat.le_refl _⟩, by simpa using hc⟩
    · rintro ⟨m, a, rfl, rfl, ⟨h1, h2⟩, h3⟩
      have h2 := h2 1 rfl
      match m, h1, h2, h3 with
      | [x], _, _, h3 => exact ⟨x, a, rfl, rfl, h3 x (by simp)⟩
  · rw [inRow_one, rep_split]

theorem chars_split (vt ci : Bool) (s : List Char) : ∀ (b t : Bytes) (j : Nat),
    InRow vt (b ++ t) (s.map fun c => .set [charAtom ci c]) b.length j ↔
      ∃ m a, t = m ++ a ∧ j = b.length + m.length ∧
        (if ci then m.map lower = (textOf s).map lower else m = textOf s) := by
  induction s with
  | nil =>
    intro b t j
    simp only [List.map_nil, InRow, textOf]
    constructor
    · rintro rfl; exact ⟨[], t, rfl, rfl, by simp⟩
    · rintro ⟨m, a, rfl, rfl, h⟩
      have : m = [] := by cases ci <;> simpa using h
      subst this; rfl
  | cons c s ih =>
    intro b t j
    simp only [List.map_cons, InRow, textOf]
    constructor
    · rintro ⟨k, h1, h2⟩
      obtain ⟨x, r, rfl, rfl, hc⟩ := (set_split _ _ _ _ _).mp h1
      rw [show b ++ x :: r = (b ++ [x]) ++ r by simp, show b.length + 1 = (b ++ [x]).length by simp, ih] at h2
      obtain ⟨m, a, rfl, rfl, h⟩ := h2
      refine ⟨x :: m, a, rfl, by simp; omega, ?_⟩
      cases ci
      · simp [inClass, charAtom, Atom.mem] at hc
        simpa [hc, textOf] using h
      · simp [inClass, charAtom, Atom.mem] at hc
        simpa [hc, textOf] using h
    · rintro ⟨m, a, rfl, rfl, h⟩
      match m, h with
      | [], h => cases ci <;> simp at h
      | x :: m, h =>
        refine ⟨b.length + 1, (set_split _ _ _ _ _).mpr ⟨x, m ++ a, rfl, rfl, ?_⟩, ?_⟩
        · cases ci <;> simp at h <;> simp [inClass, charAtom, Atom.mem, h.1]
        · rw [show b ++ (x :: m ++ a) = (b ++ [x]) ++ (m ++ a) by simp,
            show b.length + 1 = (b ++ [x]).length by simp, ih]
          refine ⟨m, a, rfl, by simp; omega, ?_⟩
          cases ci <;> simp at h <;> simp [textOf, h.2]

theorem exact_class (vt : Bool) (l : List Char) (x : Byte) :
    inClass vt (l.map (charAtom false)) x = true ↔ x ∈ textOf l := by
  simp only [inClass, List.any_map, List.any_eq_true, Function.comp, charAtom, Atom.mem, textOf,
    List.mem_map, Bool.false_eq_true, if_false, beq_iff_eq]
  exact exists_congr fun c => and_congr_right fun _ => eq_comm

theorem startsLine_split (b s : Bytes) : startsLine (b ++ s) b.length = true ↔
    (b = [] ∨ b.getLast? = some 10 ∧ s ≠ []) := by
  cases h : b.length with
  | zero =>
    have := List.eq_nil_of_length_eq_zero h
    subst this
    simp [startsLine]
  | succ n =>
    have hb : b ≠ [] := by rintro rfl; cases h
    simp only [startsLine, Bool.and_eq_true, beq_iff_eq, decide_eq_true_eq, hb, false_or]
    rw [List.getElem?_append_left (by omega), List.getLast?_eq_getElem?, h, Nat.add_sub_cancel,
      List.length_append, h]
    refine and_congr_right fun _ => ?_
    cases s <;> simp

theorem piece_split (vt : Bool) (p : Piece) (b s : Bytes) (j : Nat) :
    InRow vt (b ++ s) p.rx b.length j ↔
      ∃ m a, s = m ++ a ∧ j = b.length + m.length ∧ p.Is vt b m a := by
  cases p with
  | folded l => simpa [Piece.Is, Piece.rx] using chars_split vt true l b s j
  | exact l => simpa [Piece.Is, Piece.rx] using chars_split vt false l b s j
  | spaces lo hi => simpa [Piece.Is, Piece.rx, inClass, Atom.mem] using many_split vt [.space] lo hi b s j
  | bytes lo hi => simpa [Piece.Is, Piece.rx, inClass, Atom.mem] using many_split vt [.dot true] lo hi b s j
  | inLine lo hi =>
    have := many_split vt [.dot false] lo hi b s j
    have e : ∀ m : Bytes, (∀ x ∈ m, inClass vt [.dot false] x = true) ↔ 10 ∉ m := by
      intro m
      simp only [inClass, List.any_cons, List.any_nil, Bool.or_false, Atom.mem, Bool.false_or, bne_iff_ne]
      exact ⟨fun h hm => h 10 hm rfl, fun h x hx e => h (e ▸ hx)⟩
    simp only [e] at this
    exact this
  | among l =>
    simp only [Piece.rx, inRow_one, rep_split, Piece.Is]
    have e : ∀ x, inClass vt (l.map amongAtom) x = true ↔
        ∃ c ∈ l, if c = '_' then isSpace vt x = true else lower x = lower (byteOf c) := by
      intro x
      simp only [inClass, List.any_map, List.any_eq_true, Function.comp]
      refine exists_congr fun c => and_congr_right fun _ => ?_
      unfold amongAtom
      split <;> simp [Atom.mem, charAtom]
    simp only [e]
    constructor
    · rintro ⟨m, a, h1, h2, _, h3⟩; exact ⟨m, a, h1, h2, h3⟩
    · rintro ⟨m, a, h1, h2, h3⟩; exact ⟨m, a, h1, h2, ⟨Nat.zero_le _, fun h e => nomatch e⟩, h3⟩
  | edge =>
    simp only [Piece.rx, inRow_one, Matches, wordAt_append, wordBefore_append, Piece.Is]
    constructor
    · rintro ⟨rfl, h⟩; exact ⟨[], s, rfl, rfl, rfl, h⟩
    · rintro ⟨m, a, rfl, rfl, rfl, h⟩; exact ⟨rfl, h⟩
  | name extra lo hi =>
    have := many_split vt (.word :: extra.map (charAtom false)) lo hi b s j
    have e : ∀ x, inClass vt (.word :: extra.map (charAtom false)) x = true ↔
        (isWord x = true ∨ x ∈ textOf extra) := by
      intro x
      rw [show inClass vt (.word :: extra.map (charAtom false)) x =
        (isWord x || inClass vt (extra.map (charAtom false)) x) from rfl, Bool.or_eq_true, exact_class]
    simp only [e] at this
    exact this
  | oneOf l =>
    simp only [Piece.rx, inRow_one, set_split, exact_class, Piece.Is]
    constructor
    · rintro ⟨x, r, rfl, rfl, h⟩; exact ⟨[x], r, rfl, rfl, x, h, rfl⟩
    · rintro ⟨m, a, rfl, rfl, x, h, rfl⟩; exact ⟨x, a, rfl, rfl, h⟩
  | newLine =>
    simp only [Piece.rx, inRow_one, Matches, startsLine_split, Piece.Is]
    constructor
    · rintro ⟨rfl, h⟩; exact ⟨[], s, rfl, rfl, rfl, h⟩
    · rintro ⟨m, a, rfl, rfl, rfl, h⟩; exact ⟨rfl, h⟩

theorem composed_split (vt : Bool) (ps : List Piece) : ∀ (b s : Bytes) (j : Nat),
    InRow vt (b ++ s) (ps.flatMap Piece.rx) b.length j ↔
      ∃ m a, s = m ++ a ∧ j = b.length + m.length ∧ Composed vt ps b m a := by
  induction ps with
  | nil =>
    intro b s j
    simp only [List.flatMap_nil, InRow, Composed]
    constructor
    · rintro rfl; exact ⟨[], s, rfl, rfl, rfl⟩
    · rintro ⟨m, a, rfl, rfl, rfl⟩; rfl
  | cons p ps ih =>
    intro b s j
    simp only [List.flatMap_cons, inRow_append, Composed]
    constructor
    · rintro ⟨k, h1, h2⟩
      obtain ⟨m1, r, rfl, rfl, h3⟩ := (piece_split _ _ _ _ _).mp h1
      rw [← List.append_assoc, ← List.length_append, ih] at h2
      obtain ⟨m2, a, rfl, rfl, h2⟩ := h2
      exact ⟨m1 ++ m2, a, by simp, by simp; omega, m1, m2, rfl, h3, h2⟩
    · rintro ⟨m, a, rfl, rfl, m1, m2, rfl, h1, h2⟩
      refine ⟨b.length + m1.length, (piece_split _ _ _ _ _).mpr
        ⟨m1, m2 ++ a, by simp, rfl, h1⟩, ?_⟩
      rw [show b ++ (m1 ++ m2 ++ a) = (b ++ m1) ++ (m2 ++ a) by simp, ← List.length_append, ih]
      exact ⟨m2, a, rfl, by simp; omega, h2⟩

theorem row_composed (vt : Bool) (ps : List Piece) (t : Bytes) (i j : Nat) (hi : i ≤ j) (hj : j ≤ t.length) :
    InRow vt t (ps.flatMap Piece.rx) i j ↔
      Composed vt ps (t.take i) ((t.drop i).take (j - i)) (t.drop j) := by
  have hl : (t.take i).length = i := by rw [List.length_take]; omega
  have h := composed_split vt ps (t.take i) (t.drop i) j
  rw [List.take_append_drop, hl] at h
  obtain ⟨e, el⟩ := split_at t i j hi hj
  rw [h]
  constructor
  · rintro ⟨m, a, h1, h2, h3⟩
    obtain ⟨e1, e2⟩ := List.append_inj (h1.symm.trans e) (by omega)
    rw [← e1, ← e2]; exact h3
  · intro h3; exact ⟨_, _, e, by omega, h3⟩

theorem has_iff (vt : Bool) (ps : List Piece) (t : Bytes) :
    Has vt ps t ↔ ∃ i j, i ≤ t.length ∧ InRow vt t (ps.flatMap Piece.rx) i j := by
  constructor
  · rintro ⟨b, m, a, rfl, h⟩
    exact ⟨b.length, b.length + m.length, by simp, (composed_split _ _ _ _ _).mpr ⟨m, a, rfl, rfl, h⟩⟩
  · rintro ⟨i, j, hi, h⟩
    have e := (List.take_append_drop i t).symm
    have hl : (t.take i).length = i := by rw [List.length_take]; omega
    have h' : InRow vt (t.take i ++ t.drop i) (ps.flatMap Piece.rx) (t.take i).length j := by
      rw [← e, hl]; exact h
    obtain ⟨m, a, h1, _, h3⟩ := (composed_split _ _ _ _ _).mp h'
    exact ⟨t.take i, m, a, by rw [← h1]; exact e, h3⟩

theorem passages_agree : passages.all (fun n => entries.all fun e => e.name != n.1 ||
    rows e == some (n.2.map (·.flatMap Piece.rx))) = true := by
  decide +kernel

theorem exclusions_agree : (entries.all fun e => match e.exclude with
    | none => exclusions.all (·.1 != e.name)
    | some s => exclusions.any fun n => n.1 == e.name &&
        s.rx.map flat == some (n.2.map (·.flatMap Piece.rx))) = true := by
  decide +kernel

theorem exclusions_names : (exclusions.map (·.1)).Nodup := by decide

/-! ### What is found and what is excluded -/

/-- C98: the expression of an entry finds something in a text exactly if one of the passages
listed for it in `passages` is in the text. -/
theorem C98_passage_iff (vt : Bool) (name : String) (l : List (List Piece)) (hn : (name, l) ∈ passages)
    (j : Nat) (e : Entry) (he : entries[j]? = some e) (hname : e.name = name) (t : Bytes) :
    (pcre vt).find j t ≠ none ↔ ∃ ps ∈ l, Has vt ps t := by
  have h := List.all_eq_true.mp (List.all_eq_true.mp passages_agree _ hn) e (List.mem_of_getElem? he)
  simp only [hname, bne_self_eq_false, Bool.false_or, beq_iff_eq] at h
  rw [find_rows he h]
  constructor
  · rintro ⟨i, k, hi, s, hs, hm⟩
    obtain ⟨ps, hp, rfl⟩ := List.mem_map.mp hs
    exact ⟨ps, hp, (has_iff _ _ _).mpr ⟨i, k, hi, hm⟩⟩
  · rintro ⟨ps, hp, h⟩
    obtain ⟨i, k, hi, hm⟩ := (has_iff _ _ _).mp h
    exact ⟨i, k, hi, _, List.mem_map.mpr ⟨ps, hp, rfl⟩, hm⟩

/-- C98: the stretch that is found is such a passage, and no passage starts before it. -/
theorem C98_stretch (vt : Bool) (name : String) (l : List (List Piece)) (hn : (name, l) ∈ passages)
    (j : Nat) (e : Entry) (he : entries[j]? = some e) (hname : e.name = name) (t : Bytes) (a b : Nat)
    (hf : (pcre vt).find j t = some (a, b)) :
    a ≤ b ∧ b ≤ t.length ∧
    (∃ ps ∈ l, Composed vt ps (t.take a) ((t.drop a).take (b - a)) (t.drop b)) ∧
    ∀ before m after, t = before ++ (m ++ after) → before.length < a →
      ∀ ps ∈ l, ¬ Composed vt ps before m after := by
  have h := List.all_eq_true.mp (List.all_eq_true.mp passages_agree _ hn) e (List.mem_of_getElem? he)
  simp only [hname, bne_self_eq_false, Bool.false_or, beq_iff_eq] at h
  unfold rows at h
  simp only [pcre, he, Option.bind_some] at hf
  cases hr : e.re.rx with
  | none => rw [hr] at h; cases h
  | some r =>
    rw [hr] at h hf
    have h : flat r = _ := Option.some.inj h
    obtain ⟨h1, h2, h3, h4⟩ := find_some _ _ _ _ _ hf
    refine ⟨h1, h2, ?_, ?_⟩
    · rw [flat_iff, h] at h3
      obtain ⟨s, hs, hm⟩ := h3
      obtain ⟨ps, hp, rfl⟩ := List.mem_map.mp hs
      exact ⟨ps, hp, (row_composed vt ps t a b h1 h2).mp hm⟩
    · rintro before m after rfl hlt ps hp hc
      refine h4 _ hlt ⟨before.length + m.length, (flat_iff _ _ _ _ _).mpr ?_⟩
      rw [h]
      exact ⟨_, List.mem_map.mpr ⟨ps, hp, rfl⟩, (composed_split _ _ _ _ _).mpr ⟨m, after, rfl, rfl, hc⟩⟩

/-- C98: a found stretch is excluded exactly if it has one of the passages listed for the
entry in `exclusions`. -/
theorem C98_excluded_iff (vt : Bool) (j : Nat) (e : Entry) (he : entries[j]? = some e) (s : Bytes) :
    (pcre vt).excluded j s = true ↔ ∃ l, (e.name, l) ∈ exclusions ∧ ∃ ps ∈ l, Has vt ps s := by
  have h := List.all_eq_true.mp exclusions_agree e (List.mem_of_getElem? he)
  simp only [pcre, he, Option.bind_some]
  cases hx : e.exclude with
  | none =>
    rw [hx] at h
    simp only [List.all_eq_true, bne_iff_ne] at h
    simp only [Option.bind_none, Bool.false_eq_true, false_iff]
    rintro ⟨l, hl, _⟩
    exact h _ hl rfl
  | some x =>
    rw [hx] at h
    simp only [List.any_eq_true, Bool.and_eq_true, beq_iff_eq] at h
    obtain ⟨⟨n, l⟩, hl, rfl, hr⟩ := h
    simp only [Option.bind_some]
    cases hr' : x.rx with
    | none => rw [hr'] at hr; cases hr
    | some r =>
      rw [hr'] at hr
      have hr : flat r = _ := Option.some.inj hr
      simp only [Option.isSome_iff_ne_none, find_iff, flat_iff, hr]
      constructor
      · rintro ⟨i, k, hi, s', hs, hm⟩
        obtain ⟨ps, hp, rfl⟩ := List.mem_map.mp hs
        exact ⟨l, hl, ps, hp, (has_iff _ _ _).mpr ⟨i, k, hi, hm⟩⟩
      · rintro ⟨l', hl', ps, hp, h⟩
        have : l' = l := by
          have : ∀ a ∈ exclusions, ∀ b ∈ exclusions, a.1 = b.1 → a = b := by decide
          exact congrArg Prod.snd (this _ hl' _ hl rfl)
        subst this
        obtain ⟨i, k, hi, hm⟩ := (has_iff _ _ _).mp h
        exact ⟨i, k, hi, _, List.mem_map.mpr ⟨ps, hp, rfl⟩, hm⟩

/-- C98: an entry is found in a text exactly if its expression finds a stretch and that
stretch has none of the passages that exclude the entry. -/
theorem C98_found_iff (vt : Bool) (j : Nat) (e : Entry) (he : entries[j]? = some e) (t : Bytes) (a b : Nat) :
    Found (pcre vt) licenseMap t j (a, b) ↔ (pcre vt).find j t = some (a, b) ∧
      ∀ l, (e.name, l) ∈ exclusions → ∀ ps ∈ l, ¬ Has vt ps ((t.drop a).take (b - a)) := by
  have hx := C98_excluded_iff vt j e he ((t.drop a).take (b - a))
  constructor
  · rintro ⟨lic, h1, h2, h3⟩
    refine ⟨h2, fun l hl ps hp h => ?_⟩
    have hl2 : lic.hasExclude = true := by
      rw [entry_license he] at h1; cases h1
      have h := List.all_eq_true.mp exclusions_agree e (List.mem_of_getElem? he)
      cases hx : e.exclude with
      | none =>
        rw [hx] at h
        simp only [List.all_eq_true, bne_iff_ne] at h
        exact absurd rfl (h _ hl)
      | some _ => rfl
    have := h3 hl2
    rw [hx.mpr ⟨l, hl, ps, hp, h⟩] at this
    cases this
  · rintro ⟨h1, h2⟩
    refine ⟨_, entry_license he, h1, fun _ => ?_⟩
    cases h : (pcre vt).excluded j ((t.drop a).take (b - a)) with
    | false => rfl
    | true =>
      obtain ⟨l, hl, ps, hp, h⟩ := hx.mp h
      exact absurd h (h2 l hl ps hp)

/-- C98: every entry of the table is covered by C92, by C98, or by C95 and C96. -/
theorem C98_all (j : Nat) (e : Entry) (he : entries[j]? = some e) :
    (∃ ps, (e.name, ps) ∈ namings) ∨ (∃ l, (e.name, l) ∈ passages) ∨
      e.name ∈ ["apache", "eiffel", "gpl3_or_later"] := by
  have h : entries.all (fun e => namings.any (·.1 == e.name) || (passages.any (·.1 == e.name) ||
      ["apache", "eiffel", "gpl3_or_later"].contains e.name)) = true := by decide +kernel
  have h := List.all_eq_true.mp h e (List.mem_of_getElem? he)
  simp only [Bool.or_eq_true, List.any_eq_true, beq_iff_eq, List.contains_iff_mem] at h
  rcases h with ⟨⟨n, ps⟩, h, rfl⟩ | ⟨⟨n, l⟩, h, rfl⟩ | h
  · exact Or.inl ⟨ps, h⟩
  · exact Or.inr (Or.inl ⟨l, h⟩)
  · exact Or.inr (Or.inr h)

/-! ### GPL 3 -/

/-- The GPL 3 entry of the table. -/
def IsGpl3 (j : Nat) : Prop := ∃ e, entries[j]? = some e ∧ e.name = "gpl3"

/-- C99, the full statement: a text that allows any later version, at the reader's option, is
not found to be under the GPL version 3 only. -/
def C99_full : Prop :=
  ∀ (vt : Bool) (j : Nat), IsGpl3 j → ∀ t : Bytes, Has vt [.folded chars!"at your option any later version"] t →
    ¬ ∃ m, Found (pcre vt) licenseMap t j m

/-- C99: if the GPL 3 is found, the words about later versions are not between the name of
the license and its version, nor is the name in full a second time in the same line; what
comes after the version does not count. -/
theorem C99_gpl3_partial (vt : Bool) (j : Nat) (hj : IsGpl3 j) (t : Bytes) (a b : Nat)
    (h : Found (pcre vt) licenseMap t j (a, b)) :
    (∃ before name gap version after, t = before ++ (name ++ (gap ++ (version ++ after))) ∧
      before.length = a ∧ after.length = t.length - b ∧
      (name.map lower = textOf chars!"gnu general public license" ∨ name.map lower = textOf chars!"gnu gpl") ∧
      gap.length ≤ 100 ∧ (version.map lower = textOf chars!"version 3" ∨ version.map lower = textOf chars!"v3")) ∧
    ¬ Has vt [.folded chars!"at your option any later version"] ((t.drop a).take (b - a)) ∧
    ¬ Has vt [.folded chars!"General Public License", .inLine 0 none, .folded chars!"General Public License"]
      ((t.drop a).take (b - a)) := by
  obtain ⟨e, he, hn⟩ := hj
  obtain ⟨hf, hx⟩ := (C98_found_iff vt j e he t a b).mp h
  rw [hn] at hx
  obtain ⟨h1, h2, ⟨ps, hp, hc⟩, _⟩ := C98_stretch vt "gpl3" gpl3Passages (by simp [passages]) j e he hn t a b hf
  have hx := hx gpl3Exclusions (by simp [exclusions])
  refine ⟨?_, hx _ (by simp [gpl3Exclusions]), hx _ (by simp [gpl3Exclusions])⟩
  · obtain ⟨e, el⟩ := split_at t a b h1 h2
    have e0 := List.take_append_drop a t
    rw [e] at e0
    generalize hm : (t.drop a).take (b - a) = m at hc e0
    have hps : ∃ n v, ps = [.folded n, .bytes 0 (some 100), .folded v] ∧
        ((textOf n).map lower = textOf chars!"gnu general public license" ∨
          (textOf n).map lower = textOf chars!"gnu gpl") ∧
        ((textOf v).map lower = textOf chars!"version 3" ∨ (textOf v).map lower = textOf chars!"v3") := by
      simp only [gpl3Passages, List.flatMap_cons, List.flatMap_nil, List.map_cons, List.map_nil,
        List.append_nil, List.cons_append, List.nil_append, List.mem_cons, List.not_mem_nil, or_false] at hp
      rcases hp with rfl | rfl | rfl | rfl
      all_goals exact ⟨_, _, rfl, by decide, by decide⟩
    obtain ⟨n, v, rfl, hn, hv⟩ := hps
    obtain ⟨x, r, rfl, hx1, g, y, rfl, hx2, z, w, rfl, hx3, rfl⟩ := hc
    refine ⟨t.take a, x, g, z, t.drop b, ?_, by rw [List.length_take]; omega, by simp, ?_, ?_, ?_⟩
    · exact e0.symm.trans (by simp)
    · rw [show x.map lower = _ from hx1]; exact hn
    · exact hx2.2 100 rfl
    · rw [show z.map lower = _ from hx3]; exact hv

/-- A notice for version 3 or later. -/
def gpl3Notice : List Char := chars!"GNU GPL v3 or at your option any later version\n"

/-- It is reported as version 3. -/
theorem C99_notice :
    detectLicense (pcre true) 0 (5, 5) licenseMap [plOf "c" (textOf gpl3Notice ++ [0])] =
      some ["gpl3"] := by
  decide +kernel

theorem C99_negation : ¬ C99_full := by
  intro h
  refine h true 26 ⟨_, rfl, rfl⟩ (textOf gpl3Notice) ?_
    ⟨(0, 10), _, rfl, by decide +kernel, fun _ => by decide +kernel⟩
  exact ⟨textOf chars!"GNU GPL v3 or ", textOf chars!"at your option any later version", textOf chars!"\n",
      by decide +kernel, _, [], (List.append_nil _).symm, rfl, rfl⟩

/-! ### Where nothing excludes -/

/-- The piece does not depend on what is around it. -/
def Piece.free : Piece → Bool
  | .edge => false
  | .newLine => false
  | _ => true

theorem Piece.Is.moved {vt : Bool} {p : Piece} (hp : p.free = true) {b m a b' a' : Bytes}
    (h : p.Is vt b m a) : p.Is vt b' m a' := by
  cases p with
  | edge => cases hp
  | newLine => cases hp
  | _ => exact h

theorem Composed.moved {vt : Bool} : ∀ {ps : List Piece}, ps.all Piece.free = true →
    ∀ {b m a b' a' : Bytes}, Composed vt ps b m a → Composed vt ps b' m a' := by
  intro ps
  induction ps with
  | nil => intro _ b m a b' a' h; exact h
  | cons p ps ih =>
    rintro hp b m a b' a' ⟨m1, m2, rfl, h1, h2⟩
    rw [List.all_cons, Bool.and_eq_true] at hp
    exact ⟨m1, m2, rfl, h1.moved hp.1, ih hp.2 h2⟩

theorem Has.around {vt : Bool} {ps : List Piece} (hp : ps.all Piece.free = true) {t : Bytes} {a n : Nat}
    (h : Has vt ps ((t.drop a).take n)) : Has vt ps t := by
  obtain ⟨b, m, c, e, h⟩ := h
  refine ⟨t.take a ++ b, m, c ++ (t.drop a).drop n, ?_, h.moved hp⟩
  have e1 := List.take_append_drop a t
  have e2 := List.take_append_drop n (t.drop a)
  rw [e] at e2
  calc t = t.take a ++ t.drop a := e1.symm
    _ = t.take a ++ (b ++ (m ++ c) ++ (t.drop a).drop n) := by rw [e2]
    _ = _ := by simp only [List.append_assoc]

theorem exclusions_free : ∀ x ∈ exclusions, ∀ ps ∈ x.2, ps.all Piece.free = true := by
  decide +kernel

/-- C98: an entry whose passage is in a text is found there if nothing that excludes it is
anywhere in the text. -/
theorem C98_not_excluded (vt : Bool) (name : String) (l : List (List Piece)) (hn : (name, l) ∈ passages)
    (j : Nat) (e : Entry) (he : entries[j]? = some e) (hname : e.name = name) (t : Bytes)
    (h : ∃ ps ∈ l, Has vt ps t)
    (hx : ∀ x, (name, x) ∈ exclusions → ∀ ps ∈ x, ¬ Has vt ps t) :
    ∃ m, Found (pcre vt) licenseMap t j m := by
  have hf := (C98_passage_iff vt name l hn j e he hname t).mpr h
  cases hf' : (pcre vt).find j t with
  | none => exact absurd hf' hf
  | some m =>
    refine ⟨m, (C98_found_iff vt j e he t m.1 m.2).mpr ⟨hf', fun x hx' ps hp hh => ?_⟩⟩
    rw [hname] at hx'
    exact hx x hx' ps hp (hh.around (exclusions_free _ hx' ps hp))

/-! ### Concrete cases -/

/-- A piece in its shortest form. -/
def Piece.sample : Piece → Bytes
  | .folded s => textOf s
  | .exact s => textOf s
  | .spaces lo _ => List.replicate lo 32
  | .bytes lo _ => List.replicate lo 42
  | .inLine lo _ => List.replicate lo 42
  | .among _ => []
  | .name _ lo _ => List.replicate lo 97
  | .oneOf s => (textOf s).take 1
  | .edge => []
  | .newLine => []

/-- The bounds of the piece leave room for something. -/
def Piece.room : Piece → Bool
  | .spaces lo (some hi) => lo ≤ hi
  | .bytes lo (some hi) => lo ≤ hi
  | .inLine lo (some hi) => lo ≤ hi
  | .name _ lo (some hi) => lo ≤ hi
  | .oneOf s => !s.isEmpty
  | _ => true

theorem sample_composed (vt : Bool) (ps : List Piece)
    (h : ps.all (fun p => p.free && p.room) = true) (b a : Bytes) :
    Composed vt ps b (ps.flatMap Piece.sample) a := by
  induction ps generalizing b with
  | nil => rfl
  | cons p ps ih =>
    simp only [List.all_cons, Bool.and_eq_true] at h
    refine ⟨p.sample, ps.flatMap Piece.sample, by simp, ?_, ih (by simpa using h.2) _⟩
    obtain ⟨⟨h1, h2⟩, _⟩ := h
    have w : ∀ lo hi, (∀ k, hi = some k → lo ≤ k) → Within lo hi lo := fun lo hi h => ⟨Nat.le_refl _, h⟩
    cases p with
    | edge => cases h1
    | newLine => cases h1
    | oneOf s =>
      cases s with
      | nil => cases h2
      | cons c s => exact ⟨byteOf c, by simp [textOf], rfl⟩
    | name extra lo hi =>
      refine ⟨?_, fun x hx => Or.inl (by rw [(List.mem_replicate.mp hx).2]; rfl)⟩
      simp only [Piece.sample, List.length_replicate]
      refine w lo hi fun k e => ?_
      subst e; simpa [Piece.room] using h2
    | folded s => rfl
    | exact s => rfl
    | among s => intro x hx; cases hx
    | spaces lo hi =>
      refine ⟨?_, fun x hx => by rw [(List.mem_replicate.mp hx).2]; rfl⟩
      simp only [Piece.sample, List.length_replicate]
      refine w lo hi fun k e => ?_
      subst e; simpa [Piece.room] using h2
    | bytes lo hi =>
      simp only [Piece.Is, Piece.sample, List.length_replicate]
      refine w lo hi fun k e => ?_
      subst e; simpa [Piece.room] using h2
    | inLine lo hi =>
      refine ⟨?_, fun hx => by have := (List.mem_replicate.mp hx).2; revert this; decide⟩
      simp only [Piece.sample, List.length_replicate]
      refine w lo hi fun k e => ?_
      subst e; simpa [Piece.room] using h2

/-- A short text with the three clauses. -/
def bsdText : Bytes := (bsdPassages.getD 4 []).flatMap Piece.sample

/-- The entry for licenses like BSD's finds something in it, whatever is around it. -/
example (vt : Bool) (b a : Bytes) : ("bsd_ish", bsdPassages) ∈ passages ∧
    entries[69]?.map Entry.name = some "bsd_ish" ∧ bsdText.length = 636 ∧
    (pcre vt).find 69 (b ++ (bsdText ++ a)) ≠ none := by
  refine ⟨by simp [passages], by decide +kernel, by decide +kernel, ?_⟩
  refine (C98_passage_iff vt "bsd_ish" bsdPassages (by simp [passages]) 69 _ rfl rfl _).mpr
    ⟨bsdPassages.getD 4 [], by decide +kernel, b, bsdText, a, rfl, sample_composed vt _ (by decide +kernel) _ _⟩

/-- A stretch that is found for the GPL 3 and excluded. -/
example : let t := textOf chars!"the GNU General Public License: general public license V3.";
    (pcre true).find 26 t = some (4, 57) ∧ (pcre true).excluded 26 ((t.drop 4).take 53) = true := by
  decide +kernel

end Ohcount.Licenses
