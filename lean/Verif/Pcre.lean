import Verif.SourceFile

/-!
The part of PCRE that `src/licenses.c` and `src/detector.c` use: the expressions they are
written in, their syntax (`compile`, for `pcre_compile`), a backtracking matcher (`find`, for `pcre_exec`),
and, apart from the matcher, what it means that an expression matches a stretch of a text
(`Matches`).  The library itself is not part of the repository; what is modelled is its
documented behaviour for single-byte texts, in the C locale, without its limits on memory
and on the number of backtracking steps.
-/

namespace Ohcount.Pcre

open Ohcount

/-! ### Expressions -/

/-- A member of a character class. -/
inductive Atom
  /-- this byte -/
  | byte (b : Byte)
  /-- this byte in either case (`PCRE_CASELESS`); the byte is in lower case -/
  | fold (b : Byte)
  /-- `\s` -/
  | space
  /-- `.`, which matches a line feed only with `PCRE_DOTALL` -/
  | dot (all : Bool)
  /-- `\w` -/
  | word
  deriving DecidableEq, Repr

/-- Expressions. -/
inductive Rx
  /-- the empty expression -/
  | eps
  /-- one byte of a class -/
  | set (c : List Atom)
  /-- `c{lo,hi}`, `c*`, `c+`: as many bytes of a class as possible -/
  | rep (c : List Atom) (lo : Nat) (hi : Option Nat)
  /-- one expression after the other -/
  | cat (a b : Rx)
  /-- `a|b` -/
  | alt (a b : Rx)
  /-- `a?` -/
  | opt (a : Rx)
  /-- `\b` -/
  | bound
  /-- `^` with `PCRE_MULTILINE` -/
  | lineStart
  /-- `(?!a)` -/
  | notAhead (a : Rx)
  deriving DecidableEq, Repr

/-- The lower case of an ASCII letter. -/
def lower (b : Byte) : Byte := if 65 ≤ b ∧ b ≤ 90 then b + 32 else b

/-- White space: blank, tab, line feed, form feed, carriage return; `vt`: and vertical tab
(since PCRE 8.34). -/
def isSpace (vt : Bool) (b : Byte) : Bool :=
  b == 32 || b == 9 || b == 10 || b == 12 || b == 13 || (vt && b == 11)

/-- Letters, digits and the underscore. -/
def isWord (b : Byte) : Bool :=
  (97 ≤ b && b ≤ 122) || (65 ≤ b && b ≤ 90) || (48 ≤ b && b ≤ 57) || b == 95

/-- Whether a byte is what a member of a class stands for. -/
def Atom.mem (vt : Bool) (x : Byte) : Atom → Bool
  | .byte b => x == b
  | .fold b => lower x == b
  | .space => isSpace vt x
  | .dot all => all || x != 10
  | .word => isWord x

/-- Whether a byte is in a class. -/
def inClass (vt : Bool) (c : List Atom) (x : Byte) : Bool := c.any (Atom.mem vt x)

/-- Whether there is a word byte at a position. -/
def wordAt (t : Bytes) (i : Nat) : Bool := match t[i]? with
  | some x => isWord x
  | none => false

/-- Whether there is a word byte before a position. -/
def wordBefore (t : Bytes) : Nat → Bool
  | 0 => false
  | i + 1 => wordAt t i

/-- Whether a line starts at a position: at the start of the text, and after a line feed
that is not the end of the text. -/
def startsLine (t : Bytes) : Nat → Bool
  | 0 => true
  | i + 1 => t[i]? == some 10 && decide (i + 1 < t.length)

/-! ### What an expression matches -/

/-- The expression matches the stretch of the text `t` from position `i` to position `j`. -/
def Matches (vt : Bool) (t : Bytes) : Rx → Nat → Nat → Prop
  | .eps, i, j => i = j
  | .set c, i, j => j = i + 1 ∧ ∃ x, t[i]? = some x ∧ inClass vt c x = true
  | .rep c lo hi, i, j => ∃ n, j = i + n ∧ lo ≤ n ∧ (∀ h, hi = some h → n ≤ h) ∧
      ∀ p, i ≤ p → p < j → ∃ x, t[p]? = some x ∧ inClass vt c x = true
  | .cat a b, i, j => ∃ m, Matches vt t a i m ∧ Matches vt t b m j
  | .alt a b, i, j => Matches vt t a i j ∨ Matches vt t b i j
  | .opt a, i, j => Matches vt t a i j ∨ i = j
  | .bound, i, j => i = j ∧ wordBefore t i ≠ wordAt t i
  | .lineStart, i, j => i = j ∧ startsLine t i = true
  | .notAhead a, i, j => i = j ∧ ¬ ∃ m, Matches vt t a i m

/-! ### The matcher -/

/-- The number of bytes of a class from a position on, at most `n`. -/
def run (vt : Bool) (c : List Atom) (t : Bytes) : Nat → Nat → Nat
  | 0, _ => 0
  | n + 1, i => match t[i]? with
    | none => 0
    | some x => if inClass vt c x then run vt c t n (i + 1) + 1 else 0

/-- Tries `n`, `n - 1`, ..., `lo`. -/
def down (f : Nat → Option Nat) (lo : Nat) : Nat → Option Nat
  | 0 => if lo = 0 then f 0 else none
  | n + 1 => if n + 1 < lo then none else (f (n + 1)).or (down f lo n)

/-- Matches an expression at position `i` and continues with `k`: the first way to do so,
in the order in which PCRE tries them (`pcre_exec`, called at src/licenses.c:829, 834,
src/detector.c:917, 925, 940). -/
def scan (vt : Bool) (t : Bytes) : Rx → (Nat → Option Nat) → Nat → Option Nat
  | .eps, k, i => k i
  | .set c, k, i => match t[i]? with
    | some x => if inClass vt c x then k (i + 1) else none
    | none => none
  | .rep c lo hi, k, i =>
    down (fun n => k (i + n)) lo
      (run vt c t (match hi with | some h => h | none => t.length) i)
  | .cat a b, k, i => scan vt t a (fun m => scan vt t b k m) i
  | .alt a b, k, i => (scan vt t a k i).or (scan vt t b k i)
  | .opt a, k, i => (scan vt t a k i).or (k i)
  | .bound, k, i => if wordBefore t i != wordAt t i then k i else none
  | .lineStart, k, i => if startsLine t i then k i else none
  | .notAhead a, k, i => match scan vt t a some i with
    | some _ => none
    | none => k i

/-- Tries the positions from `i` on, `n` of them. -/
def search (vt : Bool) (t : Bytes) (r : Rx) : Nat → Nat → Option (Nat × Nat)
  | 0, _ => none
  | n + 1, i => match scan vt t r some i with
    | some j => some (i, j)
    | none => search vt t r n (i + 1)

/-- `pcre_exec` from offset 0: start and end of the first match (`ovector[0]`,
`ovector[1]`), src/licenses.c:829-831. -/
def find (vt : Bool) (r : Rx) (t : Bytes) : Option (Nat × Nat) := search vt t r (t.length + 1) 0

/-! ### Syntax -/

/-- The characters of a literal as a list, so that the kernel need not decode the literal. -/
macro:max "chars!" s:str : term => do
  let cs ← s.getString.toList.mapM fun c => `($(Lean.Syntax.mkCharLit c))
  `([$(cs.toArray),*])

/-- The byte of a character of an expression. -/
def byteOf (c : Char) : Byte := UInt8.ofNat c.toNat

/-- A character that stands for itself. -/
def charAtom (ci : Bool) (c : Char) : Atom :=
  if ci then .fold (lower (byteOf c)) else .byte (byteOf c)

/-- The character after a backslash: `\s`, `\w`, `\f`, or punctuation that stands for itself. `\b`
is not in here. -/
def escape (ci : Bool) (c : Char) : Option Atom :=
  if c = 's' then some .space
  else if c = 'w' then some .word
  else if c = 'f' then some (charAtom ci (Char.ofNat 12))
  else if c.isAlphanum then none
  else some (charAtom ci c)

/-- The members of a class up to its `]`. Ranges are not used; `-` is a member of its own at
the end. -/
def classBody (ci : Bool) : List Char → Option (List Atom × List Char)
  | [] => none
  | ']' :: s => some ([], s)
  | '-' :: ']' :: s => some ([charAtom ci '-'], s)
  | '\\' :: c :: s => (escape ci c).bind fun a =>
      (classBody ci s).map fun (as, r) => (a :: as, r)
  | c :: s => if c = '-' ∨ c = '^' ∨ c = '[' then none else
      (classBody ci s).map fun (as, r) => (charAtom ci c :: as, r)

/-- A decimal number. -/
def number : Nat → List Char → Nat × List Char
  | n, [] => (n, [])
  | n, c :: s => if c.isDigit then number (10 * n + (c.toNat - 48)) s else (n, c :: s)

/-- What a quantifier makes of an expression. Only `?` is used after a group. -/
def quantify (a : Rx) (s : List Char) : Option (Rx × List Char) :=
  match s with
  | '?' :: r => some (.opt a, r)
  | '*' :: r => match a with
    | .set c => some (.rep c 0 none, r)
    | _ => none
  | '+' :: r => match a with
    | .set c => some (.rep c 1 none, r)
    | _ => none
  | '{' :: r => match a, number 0 r with
    | .set c, (lo, ',' :: r1) => match number 0 r1 with
      | (hi, '}' :: r2) => some (.rep c lo (some hi), r2)
      | _ => none
    | _, _ => none
  | _ => some (a, s)

/-- What is being read. -/
inductive Mode
  /-- alternatives -/
  | alt
  /-- a sequence -/
  | seq
  /-- one item without its quantifier -/
  | item

/-- Reads an expression; the number bounds the depth of the recursion. Outside the syntax
that is used: `none`. Of negated classes only `[^\n]` is used, and `^` only with
`PCRE_MULTILINE`. -/
def read (ci all : Bool) : Nat → Mode → List Char → Option (Rx × List Char)
  | 0, _, _ => none
  | n + 1, .alt, s => (read ci all n .seq s).bind fun (a, r) => match r with
    | '|' :: r1 => (read ci all n .alt r1).map fun (b, r2) => (.alt a b, r2)
    | _ => some (a, r)
  | n + 1, .seq, s => match s with
    | [] => some (.eps, [])
    | ')' :: r => some (.eps, ')' :: r)
    | '|' :: r => some (.eps, '|' :: r)
    | _ => (read ci all n .item s).bind fun (a, r) => (quantify a r).bind fun (q, r1) =>
        (read ci all n .seq r1).map fun (b, r2) => (match b with
          | .eps => q
          | _ => .cat q b, r2)
  | n + 1, .item, s => match s with
    | '(' :: '?' :: '!' :: r => (read ci all n .alt r).bind fun (a, r1) => match r1 with
      | ')' :: r2 => some (.notAhead a, r2)
      | _ => none
    | '(' :: '?' :: _ => none
    | '(' :: r => (read ci all n .alt r).bind fun (a, r1) => match r1 with
      | ')' :: r2 => some (a, r2)
      | _ => none
    | '[' :: '^' :: '\\' :: 'n' :: ']' :: r => some (.set [.dot false], r)
    | '[' :: r => (classBody ci r).map fun (c, r1) => (.set c, r1)
    | '.' :: r => some (.set [.dot all], r)
    | '\\' :: 'b' :: r => some (.bound, r)
    | '^' :: r => some (.lineStart, r)
    | '{' :: r => match r with
      | d :: _ => if d.isDigit then none else some (.set [charAtom ci '{'], r)
      | [] => some (.set [charAtom ci '{'], r)
    | '\\' :: c :: r => (escape ci c).map fun a => (.set [a], r)
    | c :: r => if c = '*' ∨ c = '+' ∨ c = '?' ∨ c = '$' ∨ c = '\\' then none
        else some (.set [charAtom ci c], r)
    | [] => none

/-- `pcre_compile` with `PCRE_CASELESS` and `PCRE_DOTALL`, src/licenses.c:750, 756. -/
def compile (ci all : Bool) (s : List Char) : Option Rx :=
  match read ci all (2 * s.length + 3) .alt s with
  | some (r, []) => some r
  | _ => none

/-! ### The matcher finds what matches -/

theorem run_spec (vt : Bool) (c : List Atom) (t : Bytes) : ∀ n i m, m ≤ run vt c t n i ↔
    m ≤ n ∧ ∀ p, i ≤ p → p < i + m → ∃ x, t[p]? = some x ∧ inClass vt c x = true := by
  intro n
  induction n with
  | zero =>
    intro i m
    simp only [run, Nat.le_zero]
    constructor
    · rintro rfl; exact ⟨rfl, fun p h1 h2 => by omega⟩
    · exact fun h => h.1
  | succ n ih =>
    intro i m
    cases m with
    | zero => simp; intro p h1 h2; omega
    | succ m =>
      simp only [run]
      split
      · rename_i h
        constructor
        · intro h'; omega
        · rintro ⟨_, h2⟩
          obtain ⟨x, hx, _⟩ := h2 i (by omega) (by omega)
          rw [h] at hx; cases hx
      · rename_i x h
        split
        · rename_i hc
          rw [Nat.add_le_add_iff_right, ih, Nat.add_le_add_iff_right]
          constructor
          · rintro ⟨h1, h2⟩
            refine ⟨h1, fun p hp1 hp2 => ?_⟩
            by_cases e : p = i
            · subst e; exact ⟨x, h, hc⟩
            · exact h2 p (by omega) (by omega)
          · rintro ⟨h1, h2⟩
            exact ⟨h1, fun p hp1 hp2 => h2 p (by omega) (by omega)⟩
        · rename_i hc
          constructor
          · intro h'; omega
          · rintro ⟨_, h2⟩
            obtain ⟨y, hy, hy2⟩ := h2 i (by omega) (by omega)
            rw [h] at hy; cases hy
            exact absurd hy2 hc

theorem or_some {a b : Option Nat} {x : Nat} (h : a.or b = some x) : a = some x ∨ b = some x := by
  cases a with
  | none => right; simpa using h
  | some y => left; simpa using h

theorem or_ne_none {a b : Option Nat} : a.or b ≠ none ↔ a ≠ none ∨ b ≠ none := by
  cases a <;> simp

theorem down_ne (f : Nat → Option Nat) (lo : Nat) : ∀ n, down f lo n ≠ none ↔
    ∃ m, lo ≤ m ∧ m ≤ n ∧ f m ≠ none := by
  intro n
  induction n with
  | zero =>
    simp only [down]
    split
    · rename_i h; subst h
      constructor
      · intro h; exact ⟨0, by omega, by omega, h⟩
      · rintro ⟨m, _, h2, h3⟩
        have : m = 0 := by omega
        subst this; exact h3
    · constructor
      · intro h; exact absurd rfl h
      · rintro ⟨m, h1, h2, _⟩; omega
  | succ n ih =>
    simp only [down]
    split
    · constructor
      · intro h; exact absurd rfl h
      · rintro ⟨m, h1, h2, _⟩; omega
    · rw [or_ne_none, ih]
      constructor
      · rintro (h | ⟨m, h1, h2, h3⟩)
        · exact ⟨n + 1, by omega, by omega, h⟩
        · exact ⟨m, h1, by omega, h3⟩
      · rintro ⟨m, h1, h2, h3⟩
        by_cases e : m = n + 1
        · subst e; exact Or.inl h3
        · exact Or.inr ⟨m, h1, by omega, h3⟩

theorem down_some (f : Nat → Option Nat) (lo x : Nat) : ∀ n, down f lo n = some x →
    ∃ m, lo ≤ m ∧ m ≤ n ∧ f m = some x := by
  intro n
  induction n with
  | zero =>
    simp only [down]
    split
    · rename_i h; subst h
      intro h; exact ⟨0, by omega, by omega, h⟩
    · intro h; cases h
  | succ n ih =>
    simp only [down]
    split
    · intro h; cases h
    · intro h
      rcases or_some h with h | h
      · exact ⟨n + 1, by omega, by omega, h⟩
      · obtain ⟨m, h1, h2, h3⟩ := ih h
        exact ⟨m, h1, by omega, h3⟩

/-- Bytes of a class from `i` on: a repetition is a matching stretch, and back. -/
theorem rep_iff (vt : Bool) (c : List Atom) (t : Bytes) (lo : Nat) (hi : Option Nat) (i m : Nat) :
    (lo ≤ m ∧ m ≤ run vt c t (match hi with | some h => h | none => t.length) i) ↔
    Matches vt t (.rep c lo hi) i (i + m) := by
  rw [run_spec]
  constructor
  · rintro ⟨h1, h2, h3⟩
    refine ⟨m, rfl, h1, ?_, h3⟩
    intro h e; subst e; exact h2
  · rintro ⟨n, e, h1, h2, h3⟩
    have : m = n := by omega
    subst this
    refine ⟨h1, ?_, h3⟩
    split
    · rename_i h; exact h2 h rfl
    · by_cases hm : m = 0
      · omega
      · obtain ⟨x, hx, _⟩ := h3 (i + m - 1) (by omega) (by omega)
        have := (List.getElem?_eq_some_iff.mp hx).1
        omega

theorem scan_ne (vt : Bool) (t : Bytes) (r : Rx) : ∀ (k : Nat → Option Nat) (i : Nat),
    scan vt t r k i ≠ none ↔ ∃ j, Matches vt t r i j ∧ k j ≠ none := by
  induction r with
  | eps =>
    intro k i
    simp only [scan, Matches]
    constructor
    · intro h; exact ⟨i, rfl, h⟩
    · rintro ⟨j, rfl, h⟩; exact h
  | set c =>
    intro k i
    simp only [scan, Matches]
    constructor
    · intro h
      split at h
      · rename_i x hx
        split at h
        · rename_i hc; exact ⟨i + 1, ⟨rfl, x, hx, hc⟩, h⟩
        · exact absurd rfl h
      · exact absurd rfl h
    · rintro ⟨j, ⟨rfl, x, hx, hc⟩, h⟩
      rw [hx]; simp only [hc, if_true]; exact h
  | rep c lo hi =>
    intro k i
    simp only [scan]
    rw [down_ne]
    constructor
    · rintro ⟨m, h1, h2, h3⟩
      exact ⟨i + m, (rep_iff ..).mp ⟨h1, h2⟩, h3⟩
    · rintro ⟨j, hm, h3⟩
      obtain ⟨n, rfl, _⟩ := id hm
      have := (rep_iff ..).mpr hm
      exact ⟨n, this.1, this.2, h3⟩
  | cat a b iha ihb =>
    intro k i
    simp only [scan, Matches]
    rw [iha]
    constructor
    · rintro ⟨m, h1, h2⟩
      obtain ⟨j, h3, h4⟩ := (ihb k m).mp h2
      exact ⟨j, ⟨m, h1, h3⟩, h4⟩
    · rintro ⟨j, ⟨m, h1, h3⟩, h4⟩
      exact ⟨m, h1, (ihb k m).mpr ⟨j, h3, h4⟩⟩
  | alt a b iha ihb =>
    intro k i
    simp only [scan, Matches]
    rw [or_ne_none, iha, ihb]
    constructor
    · rintro (⟨j, h1, h2⟩ | ⟨j, h1, h2⟩)
      · exact ⟨j, Or.inl h1, h2⟩
      · exact ⟨j, Or.inr h1, h2⟩
    · rintro ⟨j, h1 | h1, h2⟩
      · exact Or.inl ⟨j, h1, h2⟩
      · exact Or.inr ⟨j, h1, h2⟩
  | opt a iha =>
    intro k i
    simp only [scan, Matches]
    rw [or_ne_none, iha]
    constructor
    · rintro (⟨j, h1, h2⟩ | h)
      · exact ⟨j, Or.inl h1, h2⟩
      · exact ⟨i, Or.inr rfl, h⟩
    · rintro ⟨j, h1 | rfl, h2⟩
      · exact Or.inl ⟨j, h1, h2⟩
      · exact Or.inr h2
  | bound =>
    intro k i
    simp only [scan, Matches]
    constructor
    · intro h
      split at h
      · rename_i hb; exact ⟨i, ⟨rfl, by simpa using hb⟩, h⟩
      · exact absurd rfl h
    · rintro ⟨j, ⟨rfl, hb⟩, h⟩
      rw [if_pos (by simpa using hb)]; exact h
  | lineStart =>
    intro k i
    simp only [scan, Matches]
    constructor
    · intro h
      split at h
      · rename_i hb; exact ⟨i, ⟨rfl, hb⟩, h⟩
      · exact absurd rfl h
    · rintro ⟨j, ⟨rfl, hb⟩, h⟩
      rw [if_pos hb]; exact h
  | notAhead a iha =>
    intro k i
    simp only [scan, Matches]
    have ha := iha some i
    constructor
    · intro h
      split at h
      · exact absurd rfl h
      · rename_i hn
        refine ⟨i, ⟨rfl, ?_⟩, h⟩
        rintro ⟨m, hm⟩
        exact ha.mpr ⟨m, hm, by simp⟩ hn
    · rintro ⟨j, ⟨rfl, hn⟩, h⟩
      split
      · rename_i x hx
        obtain ⟨m, hm, _⟩ := ha.mp (by rw [hx]; simp)
        exact absurd ⟨m, hm⟩ hn
      · exact h

theorem scan_some (vt : Bool) (t : Bytes) (x : Nat) (r : Rx) : ∀ (k : Nat → Option Nat) (i : Nat),
    scan vt t r k i = some x → ∃ j, Matches vt t r i j ∧ k j = some x := by
  induction r with
  | eps => intro k i h; exact ⟨i, rfl, h⟩
  | set c =>
    intro k i h
    simp only [scan] at h
    split at h
    · rename_i y hy
      split at h
      · rename_i hc; exact ⟨i + 1, ⟨rfl, y, hy, hc⟩, h⟩
      · cases h
    · cases h
  | rep c lo hi =>
    intro k i h
    obtain ⟨m, h1, h2, h3⟩ := down_some _ _ _ _ h
    exact ⟨i + m, (rep_iff ..).mp ⟨h1, h2⟩, h3⟩
  | cat a b iha ihb =>
    intro k i h
    obtain ⟨m, h1, h2⟩ := iha _ _ h
    obtain ⟨j, h3, h4⟩ := ihb _ _ h2
    exact ⟨j, ⟨m, h1, h3⟩, h4⟩
  | alt a b iha ihb =>
    intro k i h
    rcases or_some h with h | h
    · obtain ⟨j, h1, h2⟩ := iha _ _ h; exact ⟨j, Or.inl h1, h2⟩
    · obtain ⟨j, h1, h2⟩ := ihb _ _ h; exact ⟨j, Or.inr h1, h2⟩
  | opt a iha =>
    intro k i h
    rcases or_some h with h | h
    · obtain ⟨j, h1, h2⟩ := iha _ _ h; exact ⟨j, Or.inl h1, h2⟩
    · exact ⟨i, Or.inr rfl, h⟩
  | bound =>
    intro k i h
    simp only [scan] at h
    split at h
    · rename_i hb; exact ⟨i, ⟨rfl, by simpa using hb⟩, h⟩
    · cases h
  | lineStart =>
    intro k i h
    simp only [scan] at h
    split at h
    · rename_i hb; exact ⟨i, ⟨rfl, hb⟩, h⟩
    · cases h
  | notAhead a iha =>
    intro k i h
    simp only [scan] at h
    split at h
    · cases h
    · rename_i hn
      refine ⟨i, ⟨rfl, ?_⟩, h⟩
      rintro ⟨m, hm⟩
      exact (scan_ne vt t a some i).mpr ⟨m, hm, by simp⟩ hn

theorem Matches.le {vt : Bool} {t : Bytes} {r : Rx} : ∀ {i j : Nat}, Matches vt t r i j → i ≤ j := by
  induction r with
  | eps => intro i j h; exact Nat.le_of_eq h
  | set c => intro i j h; rw [h.1]; omega
  | rep c lo hi => rintro i j ⟨n, h, _⟩; omega
  | cat a b iha ihb => rintro i j ⟨m, h1, h2⟩; exact Nat.le_trans (iha h1) (ihb h2)
  | alt a b iha ihb => intro i j h; exact Or.elim h (fun h => iha h) (fun h => ihb h)
  | opt a iha => intro i j h; exact Or.elim h (fun h => iha h) (fun h => Nat.le_of_eq h)
  | bound => rintro i j ⟨h, _⟩; exact Nat.le_of_eq h
  | lineStart => rintro i j ⟨h, _⟩; exact Nat.le_of_eq h
  | notAhead a _ => rintro i j ⟨h, _⟩; exact Nat.le_of_eq h

/-- A match that starts in the text ends in it. -/
theorem Matches.inside {vt : Bool} {t : Bytes} {r : Rx} : ∀ {i j : Nat}, Matches vt t r i j →
    i ≤ t.length → j ≤ t.length := by
  induction r with
  | eps => intro i j h hi; rw [← show i = j from h]; exact hi
  | set c =>
    rintro i j ⟨h, x, hx, _⟩ _
    have := (List.getElem?_eq_some_iff.mp hx).1
    omega
  | rep c lo hi =>
    rintro i j ⟨n, h, _, _, h3⟩ hi
    by_cases hn : n = 0
    · omega
    · obtain ⟨x, hx, _⟩ := h3 (j - 1) (by omega) (by omega)
      have := (List.getElem?_eq_some_iff.mp hx).1
      omega
  | cat a b iha ihb => rintro i j ⟨m, h1, h2⟩ hi; exact ihb h2 (iha h1 hi)
  | alt a b iha ihb => intro i j h hi; exact Or.elim h (fun h => iha h hi) (fun h => ihb h hi)
  | opt a iha => intro i j h hi; exact Or.elim h (fun h => iha h hi) (fun h => h ▸ hi)
  | bound => rintro i j ⟨h, _⟩ hi; exact h ▸ hi
  | lineStart => rintro i j ⟨h, _⟩ hi; exact h ▸ hi
  | notAhead a _ => rintro i j ⟨h, _⟩ hi; exact h ▸ hi

theorem search_none (vt : Bool) (t : Bytes) (r : Rx) : ∀ n i, search vt t r n i = none ↔
    ∀ p, i ≤ p → p < i + n → ¬ ∃ j, Matches vt t r p j := by
  intro n
  induction n with
  | zero => intro i; simp only [search, true_iff]; intro p h1 h2; omega
  | succ n ih =>
    intro i
    simp only [search]
    have h0 := scan_ne vt t r some i
    split
    · rename_i j hj
      constructor
      · intro h; cases h
      · intro h
        obtain ⟨m, hm, _⟩ := h0.mp (by rw [hj]; simp)
        exact absurd ⟨m, hm⟩ (h i (by omega) (by omega))
    · rename_i hn
      rw [ih]
      constructor
      · intro h p h1 h2
        by_cases e : p = i
        · subst e
          rintro ⟨m, hm⟩
          exact h0.mpr ⟨m, hm, by simp⟩ hn
        · exact h p (by omega) (by omega)
      · intro h p h1 h2; exact h p (by omega) (by omega)

theorem search_some (vt : Bool) (t : Bytes) (r : Rx) (a b : Nat) : ∀ n i,
    search vt t r n i = some (a, b) → i ≤ a ∧ a < i + n ∧ Matches vt t r a b ∧
      ∀ p, i ≤ p → p < a → ¬ ∃ j, Matches vt t r p j := by
  intro n
  induction n with
  | zero => intro i h; cases h
  | succ n ih =>
    intro i h
    simp only [search] at h
    split at h
    · rename_i j hj
      cases h
      obtain ⟨m, hm, e⟩ := scan_some vt t b r some a hj
      cases e
      exact ⟨by omega, by omega, hm, fun p h1 h2 => by omega⟩
    · rename_i hn
      obtain ⟨h1, h2, h3, h4⟩ := ih _ h
      refine ⟨by omega, by omega, h3, fun p hp1 hp2 => ?_⟩
      by_cases e : p = i
      · subst e
        rintro ⟨m, hm⟩
        exact (scan_ne vt t r some p).mpr ⟨m, hm, by simp⟩ hn
      · exact h4 p (by omega) hp2

/-- The search finds something exactly if the expression matches some stretch of the text. -/
theorem find_iff (vt : Bool) (r : Rx) (t : Bytes) :
    find vt r t ≠ none ↔ ∃ i j, i ≤ t.length ∧ Matches vt t r i j := by
  unfold find
  rw [Ne, search_none]
  constructor
  · intro h
    exact Classical.byContradiction fun hc => h fun p _ h2 ⟨j, hj⟩ => hc ⟨p, j, by omega, hj⟩
  · rintro ⟨i, j, h1, h2⟩ h
    exact h i (by omega) (by omega) ⟨j, h2⟩

/-- What the search finds is a match, it lies in the text, and there is no match further to
the left. -/
theorem find_some (vt : Bool) (r : Rx) (t : Bytes) (a b : Nat) (h : find vt r t = some (a, b)) :
    a ≤ b ∧ b ≤ t.length ∧ Matches vt t r a b ∧ ∀ p, p < a → ¬ ∃ j, Matches vt t r p j := by
  obtain ⟨_, h2, h3, h4⟩ := search_some vt t r a b _ _ h
  exact ⟨h3.le, h3.inside (by omega), h3, fun p hp => h4 p (by omega) hp⟩

/-- A concrete case: the leftmost match, as long as the greedy repetition makes it. -/
example : (compile true false chars!"\\ba\\s*b(?!c)").map (fun r => find true r "xab abc A  B ab".toUTF8.toList) =
    some (some (8, 12)) := by decide +kernel

end Ohcount.Pcre
