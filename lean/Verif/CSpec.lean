import Verif.Lexis
import Verif.LexisTable

/-!
The lines of a C source: a specification that can be read on its own.  A source is read byte by byte; each byte is code,
comment or white space.
-/

namespace Ohcount.CSpec
open Ohcount.Ragel

/-- Where the reading of a C source is; `opened m`: before the second character of `//` or of the two that open a block
comment; `closed`: before the slash that closes one; `quoted q`: after a backslash in the literal with quote `q`; `spliced`: at
a line end after a backslash in a line comment, `splicedCr`: after the carriage return of such a line end. -/
inductive Place where
  | code
  | lineComment
  | blockComment
  | literal (q : Nat)
  | opened (line : Bool)
  | closed
  | quoted (q : Nat)
  | spliced
  | splicedCr
  | bad
  deriving DecidableEq, Repr

/-- White space has no label. -/
def textLabel (k : Kind) (b : Nat) : Kind := if isWhite b then .lblank else k

/-- A byte of a line comment. -/
def inLine (b : Nat) (next : Option Nat) : Kind × Place :=
  if isNl b then (.lblank, .code)
  else if b = 92 ∧ next.any isNl then (.lcomment, .spliced)
  else (textLabel .lcomment b, .lineComment)

/-- One byte, with the byte after it: its label and where the reading goes on.  92 is the backslash, 47 the slash, 42 the star, 34 and 39 the quotes. -/
def read1 : Place → Nat → Option Nat → Kind × Place
  | .code, b, next =>
    if b = 47 ∧ next = some 47 then (.lcomment, .opened true)
    else if b = 47 ∧ next = some 42 then (.lcomment, .opened false)
    else if b = 34 ∨ b = 39 then (.lcode, .literal b)
    else (textLabel .lcode b, .code)
  | .opened line, _, _ => (.lcomment, if line then .lineComment else .blockComment)
  | .lineComment, b, next => inLine b next
  | .spliced, b, _ => (.lblank, if b = 13 then .splicedCr else .lineComment)
  | .splicedCr, b, next => if b = 10 then (.lblank, .lineComment) else inLine b next
  | .blockComment, b, next => if b = 42 ∧ next = some 47 then (.lcomment, .closed) else (textLabel .lcomment b, .blockComment)
  | .closed, _, _ => (.lcomment, .code)
  | .literal q, b, next =>
    if b = q then (.lcode, .code)
    else if isNl b then (.lblank, .bad)
    else if b = 92 then (.lcode, if next.any isNl then .bad else .quoted q)
    else (textLabel .lcode b, .literal q)
  | .quoted q, _, _ => (.lcode, .literal q)
  | .bad, _, _ => (.lblank, .bad)

/-- The labels of the bytes, and where the reading ends. -/
def read : Place → List Nat → List Kind × Place
  | m, [] => ([], m)
  | m, b :: r =>
    let x := read1 m b r.head?
    let y := read x.2 r
    (x.1 :: y.1, y.2)

/-- The source has no unclosed block comment and no unclosed or broken literal. -/
def Correct (buf : List Byte) : Prop :=
  (read .code (buf.map (·.toNat))).2 = .code ∨ (read .code (buf.map (·.toNat))).2 = .lineComment

instance (buf : List Byte) : Decidable (Correct buf) := by unfold Correct; infer_instance

/-- The labels of a source. -/
def labels (buf : List Byte) : List Kind := (read .code (buf.map (·.toNat))).1

/-- The line `[x, y)` is code if it has a byte of code, else comment if it has a byte of comment, else blank. -/
def lineKind (buf : List Byte) (x y : Nat) : Kind :=
  let l := ((labels buf).drop x).take (y - x)
  if l.contains .lcode then .lcode else if l.contains .lcomment then .lcomment else .lblank

/-! ### The same as the constructs of c.rl -/

/-- The state of `Lexis.scan` for a place. -/
def ofPlace : Place → Mode × Nat × Kind
  | .code => (.code, 0, .lblank)
  | .lineComment => (.inside 0, 0, .lblank)
  | .blockComment => (.inside 1, 0, .lblank)
  | .literal q => (.inside (if q = 39 then 2 else 3), 0, .lblank)
  | .opened true => (.inside 0, 1, .lcomment)
  | .opened false => (.inside 1, 1, .lcomment)
  | .closed => (.code, 1, .lcomment)
  | .quoted q => (.inside (if q = 39 then 2 else 3), 1, .lcode)
  | .spliced => (.escaped 0, 0, .lblank)
  | .splicedCr => (.escapedCr 0, 0, .lblank)
  | .bad => (.bad, 0, .lblank)

def quoteOk : Place → Prop
  | .literal q => q = 34 ∨ q = 39
  | .quoted q => q = 34 ∨ q = 39
  | _ => True

theorem read_bad : ∀ l : List Nat, (read .bad l).2 = .bad
  | [] => rfl
  | _ :: l => read_bad l

theorem scan_zero (L : Lexis) (m : Mode) (a b : Kind) (l : List Nat) : L.scan m 0 a l = L.scan m 0 b l := by
  cases l <;> rfl

def K0 : Construct := { op := [47, 47], cl := [], lab := .lcomment, esc := true, pairs := false, escNl := true, escMark := true }
def K1 : Construct := { op := [47, 42], cl := [[42, 47]], lab := .lcomment, lines := true }
def K2 : Construct := { op := [39], cl := [[39]], lab := .lcode, esc := true }
def K3 : Construct := { op := [34], cl := [[34]], lab := .lcode, esc := true }

theorem strict_eq : LexisTable.c_line_strict = [K0, K1, K2, K3] := by decide +kernel

theorem beq_swap (x b : Nat) : (x == b) = decide (b = x) := by
  rw [Bool.eq_iff_iff, beq_iff_eq, decide_eq_true_eq]
  exact ⟨Eq.symm, Eq.symm⟩

theorem prefix2 (x y b : Nat) (r : List Nat) : [x, y].isPrefixOf (b :: r) = (decide (b = x) && decide (r.head? = some y)) := by
  cases r with
  | nil => simp [List.isPrefixOf]
  | cons c r =>
    simp only [List.isPrefixOf_cons₂, List.isPrefixOf_nil_left, Bool.and_true, List.head?_cons, Option.some.injEq, beq_swap]

theorem prefix1 (x b : Nat) (r : List Nat) : [x].isPrefixOf (b :: r) = decide (b = x) := by
  simp only [List.isPrefixOf_cons₂, List.isPrefixOf_nil_left, Bool.and_true, beq_swap]

theorem opens0 (b : Nat) (r : List Nat) : K0.opens (b :: r) = (decide (b = 47) && decide (r.head? = some 47)) := by
  simp [Construct.opens, K0, prefix2]
theorem opens1 (b : Nat) (r : List Nat) : K1.opens (b :: r) = (decide (b = 47) && decide (r.head? = some 42)) := by
  simp [Construct.opens, K1, prefix2]
theorem opens2 (b : Nat) (r : List Nat) : K2.opens (b :: r) = decide (b = 39) := by
  simp [Construct.opens, K2, prefix1]
theorem opens3 (b : Nat) (r : List Nat) : K3.opens (b :: r) = decide (b = 34) := by
  simp [Construct.opens, K3, prefix1]

theorem closer0 (b : Nat) (r : List Nat) : K0.closer (b :: r) = none := rfl
theorem closer1 (b : Nat) (r : List Nat) : K1.closer (b :: r) = if b = 42 ∧ r.head? = some 47 then some [42, 47] else none := by
  simp only [Construct.closer, K1, List.nil_append, List.find?_cons, prefix2, List.find?_nil]
  by_cases h : b = 42 <;> by_cases h2 : r.head? = some 47 <;> simp [h, h2]
theorem closer2 (b : Nat) (r : List Nat) : K2.closer (b :: r) = if b = 39 then some [39] else none := by
  simp only [Construct.closer, K2, List.nil_append, List.find?_cons, prefix1, List.find?_nil]
  by_cases h : b = 39 <;> simp [h]
theorem closer3 (b : Nat) (r : List Nat) : K3.closer (b :: r) = if b = 34 then some [34] else none := by
  simp only [Construct.closer, K3, List.nil_append, List.find?_cons, prefix1, List.find?_nil]
  by_cases h : b = 34 <;> simp [h]

abbrev S : Lexis := [K0, K1, K2, K3]

theorem tok_code (b : Nat) (r : List Nat) : Lexis.tok S .code (b :: r) =
    if b = 47 ∧ r.head? = some 47 then ⟨2, .lcomment, .inside 0⟩
    else if b = 47 ∧ r.head? = some 42 then ⟨2, .lcomment, .inside 1⟩
    else if b = 39 then ⟨1, .lcode, .inside 2⟩ else if b = 34 then ⟨1, .lcode, .inside 3⟩
    else ⟨1, textLabel .lcode b, .code⟩ := by
  simp only [Lexis.tok, S, List.findIdx?_cons, opens0, opens1, opens2, opens3, List.findIdx?_nil]
  by_cases h1 : b = 47
  · subst h1
    by_cases h2 : r.head? = some 47
    · simp [h2, K0, Construct.opening]
    · by_cases h3 : r.head? = some 42
      · simp [h3, K1, Construct.opening]
      · simp [h2, h3, tokCode, textLabel]
  · by_cases h2 : b = 39
    · simp [h2, K2, Construct.opening]
    · by_cases h3 : b = 34
      · simp [h3, K3, Construct.opening]
      · simp [h1, h2, h3, tokCode, textLabel]

theorem head_getD (r : List Nat) : isNl (r.getD 0 0) = r.head?.any isNl := by
  cases r <;> simp [isNl]

theorem tok_line (b : Nat) (r : List Nat) : tokIn 0 K0 false (b :: r) =
    ⟨1, (inLine b r.head?).1, (ofPlace (inLine b r.head?).2).1⟩ := by
  simp only [tokIn, closer0, inLine, Bool.false_eq_true, if_false, List.headD_cons, List.getD_cons_succ, head_getD]
  by_cases h1 : isNl b = true
  · simp [h1, K0, ofPlace]
  · by_cases h2 : b = 92
    · by_cases h3 : r.head?.any isNl = true
      · simp [h1, h2, h3, K0, ofPlace, isNl]
      · simp [h1, h2, h3, K0, ofPlace, isNl, isWhite, Construct.next, textLabel]
    · simp [h1, h2, K0, ofPlace, Construct.next, textLabel]

theorem tok_block (b : Nat) (r : List Nat) : tokIn 1 K1 false (b :: r) =
    if b = 42 ∧ r.head? = some 47 then ⟨2, .lcomment, .code⟩ else ⟨1, textLabel .lcomment b, .inside 1⟩ := by
  simp only [tokIn, closer1, Bool.false_eq_true, if_false, List.headD_cons]
  by_cases h1 : b = 42 ∧ r.head? = some 47
  · simp [h1, K1]
  · simp only [h1, if_false, K1]
    by_cases h2 : isNl b = true <;> simp [h2, textLabel, isWhite, Construct.next]

theorem tok_lit (c : Construct) (i q : Nat) (hc : c = K2 ∧ i = 2 ∧ q = 39 ∨ c = K3 ∧ i = 3 ∧ q = 34) (b : Nat) (r : List Nat)
    (hb : (read1 (.literal q) b r.head?).2 ≠ .bad) : tokIn i c false (b :: r) =
      ⟨if b ≠ q ∧ b = 92 then 2 else 1, (read1 (.literal q) b r.head?).1, (ofPlace (read1 (.literal q) b r.head?).2).1⟩ := by
  simp only [read1] at hb ⊢
  simp only [tokIn, List.headD_cons, List.getD_cons_succ, head_getD]
  by_cases h1 : b = q
  · rcases hc with ⟨rfl, rfl, rfl⟩ | ⟨rfl, rfl, rfl⟩ <;> subst h1 <;> simp [closer2, closer3, ofPlace] <;> simp [K2, K3]
  · simp only [h1, if_false] at hb ⊢
    have hn : isNl b = false := by
      cases h : isNl b with
      | false => rfl
      | true => simp [h] at hb
    simp only [hn, Bool.false_eq_true, if_false] at hb ⊢
    by_cases h2 : b = 92
    · simp only [h2, if_true] at hb ⊢
      have h3 : r.head?.any isNl = false := by
        cases h : r.head?.any isNl with
        | false => rfl
        | true => simp [h] at hb
      rcases hc with ⟨rfl, rfl, rfl⟩ | ⟨rfl, rfl, rfl⟩ <;> simp [closer2, closer3, ofPlace, h3] <;> simp [K2, K3, Construct.next]
    · rcases hc with ⟨rfl, rfl, rfl⟩ | ⟨rfl, rfl, rfl⟩ <;> simp [closer2, closer3, h1, h2, ofPlace] <;> simp [K2, K3, Construct.next, textLabel]

theorem again_false (c : Construct) (h : c.last = false) (l : List Nat) : c.again l = false := by simp [Construct.again, h]

/-- One byte. -/
theorem scan_step (m : Place) (hm : quoteOk m) (b : Nat) (r : List Nat) (hb : (read1 m b r.head?).2 ≠ .bad) :
    Lexis.scan S (ofPlace m).1 (ofPlace m).2.1 (ofPlace m).2.2 (b :: r) =
      ((read1 m b r.head?).1 :: (Lexis.scan S (ofPlace (read1 m b r.head?).2).1 (ofPlace (read1 m b r.head?).2).2.1 (ofPlace (read1 m b r.head?).2).2.2 r).1,
       (Lexis.scan S (ofPlace (read1 m b r.head?).2).1 (ofPlace (read1 m b r.head?).2).2.1 (ofPlace (read1 m b r.head?).2).2.2 r).2) := by
  have hz := scan_zero S
  have l0 : K0.last = false := rfl
  have l1 : K1.last = false := rfl
  have l2 : K2.last = false := rfl
  have l3 : K3.last = false := rfl
  cases m with
  | bad => exact absurd rfl hb
  | code =>
    simp only [ofPlace, Lexis.scan, tok_code, read1]
    by_cases h1 : b = 47 ∧ r.head? = some 47
    · simp [h1, ofPlace]
    · simp only [h1, if_false]
      by_cases h2 : b = 47 ∧ r.head? = some 42
      · simp [h2, ofPlace]
      · simp only [h2, if_false]
        by_cases h3 : b = 39
        · simp only [h3, or_true, if_true, ofPlace, Nat.sub_self]
          rw [hz _ _ .lblank]
        · by_cases h4 : b = 34
          · subst h4
            simp only [true_or, if_true, ofPlace, Nat.sub_self, if_neg h3]
            rw [hz _ _ .lblank]
          · simp only [h3, h4, if_false, ofPlace, Nat.sub_self, or_self]
            rw [hz _ _ .lblank]
  | opened line => cases line <;> simp only [ofPlace, Lexis.scan, read1, if_true, Bool.false_eq_true, if_false, hz _ .lcomment .lblank]
  | closed => simp only [ofPlace, Lexis.scan, read1, hz _ .lcomment .lblank]
  | quoted q => simp only [ofPlace, Lexis.scan, read1, hz _ .lcode .lblank]
  | lineComment =>
    have h : Lexis.tok S (.inside 0) (b :: r) = tokIn 0 K0 false (b :: r) := by
      simp only [Lexis.tok, S, List.getElem?_cons_zero, again_false _ l0]
    show Lexis.scan S (.inside 0) 0 .lblank (b :: r) = _
    simp only [Lexis.scan, h, tok_line, read1, Nat.sub_self]
    have : ∀ x : Kind × Place, x = inLine b r.head? → Lexis.scan S (ofPlace x.2).1 0 x.1 r = Lexis.scan S (ofPlace x.2).1 (ofPlace x.2).2.1 (ofPlace x.2).2.2 r := by
      rintro x rfl
      unfold inLine
      split
      · exact hz _ _ _ _
      · split <;> exact hz _ _ _ _
    rw [this _ rfl]
  | spliced =>
    simp only [ofPlace, Lexis.scan, Lexis.tok, S, List.getElem?_cons_zero, List.headD_cons, read1]
    by_cases h : b = 13 <;> simp [h, K0, ofPlace]
  | splicedCr =>
    show Lexis.scan S (.escapedCr 0) 0 .lblank (b :: r) = _
    simp only [Lexis.scan, Lexis.tok, List.getElem?_cons_zero, List.headD_cons, read1, again_false _ l0, tok_line]
    by_cases h : b = 10
    · simp [h, ofPlace]
    · simp only [beq_iff_eq, h, if_false, Nat.sub_self]
      have : ∀ x : Kind × Place, x = inLine b r.head? → Lexis.scan S (ofPlace x.2).1 0 x.1 r = Lexis.scan S (ofPlace x.2).1 (ofPlace x.2).2.1 (ofPlace x.2).2.2 r := by
        rintro x rfl
        unfold inLine
        split
        · exact hz _ _ _ _
        · split <;> exact hz _ _ _ _
      rw [this _ rfl]
  | blockComment =>
    have h : Lexis.tok S (.inside 1) (b :: r) = tokIn 1 K1 false (b :: r) := by
      simp only [Lexis.tok, S, List.getElem?_cons_succ, List.getElem?_cons_zero, again_false _ l1]
    simp only [ofPlace, Lexis.scan, h, tok_block, read1]
    by_cases h1 : b = 42 ∧ r.head? = some 47
    · simp [h1, ofPlace]
    · simp only [h1, if_false, ofPlace, Nat.sub_self]
      rw [hz _ _ .lblank]
  | literal q =>
    obtain ⟨c, i, hi, hc, ho⟩ : ∃ c i, S[i]? = some c ∧ (c = K2 ∧ i = 2 ∧ q = 39 ∨ c = K3 ∧ i = 3 ∧ q = 34) ∧ (ofPlace (.literal q)) = (.inside i, 0, .lblank) := by
      rcases hm with rfl | rfl
      · exact ⟨K3, 3, rfl, .inr ⟨rfl, rfl, rfl⟩, rfl⟩
      · exact ⟨K2, 2, rfl, .inl ⟨rfl, rfl, rfl⟩, rfl⟩
    have hl : c.last = false := by rcases hc with ⟨rfl, _⟩ | ⟨rfl, _⟩ <;> rfl
    have h : Lexis.tok S (.inside i) (b :: r) = tokIn i c false (b :: r) := by
      simp only [Lexis.tok, hi, again_false _ hl]
    rw [ho]
    simp only [Lexis.scan, h, tok_lit c i q hc b r hb]
    have : ∀ x : Kind × Place, x = read1 (.literal q) b r.head? → Lexis.scan S (ofPlace x.2).1 ((if b ≠ q ∧ b = 92 then 2 else 1) - 1) x.1 r = Lexis.scan S (ofPlace x.2).1 (ofPlace x.2).2.1 (ofPlace x.2).2.2 r := by
      rintro x rfl
      revert hb
      unfold read1
      by_cases h1 : b = q
      · simp [h1, ofPlace, hz _ .lcode .lblank]
      · by_cases h2 : isNl b = true
        · simp [h1, h2]
        · by_cases h3 : b = 92
          · have h1' : ¬ 92 = q := h3 ▸ h1
            by_cases h4 : r.head?.any isNl = true
            · simp [h1', h3, h4, isNl]
            · simp [h1', h3, h4, isNl, ofPlace]
          · have h2' : isNl b = false := by simpa using h2
            simp only [h1, h2', h3, if_false, and_false, Nat.sub_self, Bool.false_eq_true]
            intro _
            exact hz _ _ _ _
    rw [this _ rfl]

theorem quote_step (m : Place) (hm : quoteOk m) (b : Nat) (n : Option Nat) : quoteOk (read1 m b n).2 := by
  cases m <;> simp only [read1, inLine] <;> (repeat' split) <;> simp_all [quoteOk]

theorem scan_read : ∀ (l : List Nat) (m : Place), quoteOk m → (read m l).2 ≠ .bad →
    Lexis.scan S (ofPlace m).1 (ofPlace m).2.1 (ofPlace m).2.2 l = ((read m l).1, (ofPlace (read m l).2).1)
  | [], m, _, _ => by cases m <;> rfl
  | b :: r, m, hm, hb => by
    have h : (read1 m b r.head?).2 ≠ .bad := by
      intro h
      apply hb
      simp only [read, h, read_bad]
    rw [scan_step m hm b r h]
    have := scan_read r (read1 m b r.head?).2 (quote_step m hm b _) (by simpa only [read] using hb)
    rw [this]
    rfl

/-- The labels of a correct source are those that the constructs of c.rl give. -/
theorem all_eq (buf : List Byte) (h : Correct buf) : LexisTable.c_line_strict.WellFormed buf ∧ LexisTable.c_line_strict.labels buf = labels buf := by
  have hb : (read .code (buf.map (·.toNat))).2 ≠ .bad := by
    rcases h with h | h <;> rw [h] <;> decide
  have := scan_read (buf.map (·.toNat)) .code trivial hb
  rw [strict_eq]
  constructor
  · unfold Lexis.WellFormed Lexis.all
    have h2 : (Lexis.scan [K0, K1, K2, K3] .code 0 .lblank (buf.map (·.toNat))).2 = (ofPlace (read .code (buf.map (·.toNat))).2).1 := by rw [show Lexis.scan [K0, K1, K2, K3] .code 0 .lblank (buf.map (·.toNat)) = _ from this]
    rw [h2]
    rcases h with h | h <;> rw [h] <;> rfl
  · unfold Lexis.labels Lexis.all labels
    rw [show Lexis.scan [K0, K1, K2, K3] .code 0 .lblank (buf.map (·.toNat)) = _ from this]

theorem lineKind_eq (buf : List Byte) (h : Correct buf) (x y : Nat) : LexisTable.c_line_strict.lineKind buf x y = lineKind buf x y := by
  unfold Lexis.lineKind lineKind
  rw [(all_eq buf h).2]

end Ohcount.CSpec
