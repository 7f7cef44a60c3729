import Verif.RagelLines

/-!
A specification of line counting that mentions no scanner.  The lexical structure of a
language is given by its constructs: comments and strings with their delimiters
(`Lexis`).  From left to right, every byte of a text is labelled as code, as comment, or as
neither (white space); a line is code if it has a byte of code, else comment if it has
a byte of comment, else blank.
-/

namespace Ohcount.Ragel

/-- A comment or a string. -/
structure Construct where
  /-- opening delimiter -/
  op : List Nat
  /-- closing delimiters; none: the construct ends before the line end -/
  cl : List (List Nat)
  /-- whether its text is code (a string) or comment -/
  lab : Kind
  /-- line ends inside are allowed -/
  lines : Bool := false
  /-- the opening delimiter opens it only if it is closed on the same line -/
  soft : Bool := false
  /-- a backslash protects the next byte -/
  esc : Bool := false
  /-- ... whatever it is; otherwise only a line end -/
  pairs : Bool := true
  /-- a line end after a backslash is allowed -/
  escNl : Bool := false
  /-- such a backslash counts as text of the construct -/
  escMark : Bool := false
  /-- the closing delimiter counts as text of the construct -/
  clMark : Bool := true
  /-- white space inside counts as text of the construct -/
  wsMark : Bool := false
  /-- the label of the opening delimiter, if it is not that of the text -/
  opLab : Option Kind := none
  /-- exactly one character between the delimiters -/
  one : Bool := false
  /-- closed by the last closing delimiter on the line -/
  last : Bool := false
  /-- must not occur -/
  forbid : Bool := false
  /-- just this opening delimiter, with nothing inside -/
  plain : Bool := false
  /-- sequences that must not occur inside -/
  avoid : List (List Nat) := []
  deriving DecidableEq, Repr

/-- Line feed, form feed, carriage return. -/
def isNl (b : Nat) : Bool := b == 10 || b == 12 || b == 13
/-- Those, space and tab. -/
def isWhite (b : Nat) : Bool := b == 32 || b == 9 || isNl b

/-- Where the reading of the text is: outside of all constructs, inside the construct `i`, in it at a line end after a backslash, in
it after the carriage return of such a line end, in it where it must close; or the text is not lexically correct. -/
inductive Mode where
  | code
  | inside (i : Nat)
  | escaped (i : Nat)
  | escapedCr (i : Nat)
  | closing (i : Nat)
  | bad
  deriving DecidableEq, Repr

/-- A lexical element: its length, the label of its bytes (`lblank` for none), how the reading goes on. -/
structure Tok where
  n : Nat
  lab : Kind
  mode : Mode
  deriving DecidableEq, Repr

namespace Construct

/-- The closing delimiter, or sequence that must not occur, at the head of the text. -/
def closer (c : Construct) (l : List Nat) : Option (List Nat) := (c.avoid ++ c.cl).find? (·.isPrefixOf l)

/-- Looking for a closing delimiter on the line.  States: 0; 1: the next byte is protected by a backslash; and if there must be exactly one character:
2 before it, 3 before it but after a backslash, 4 after it.  Result: found, not found, or the next state. -/
def look (c : Construct) (st b : Nat) : Bool ⊕ Nat :=
  match st with
  | 0 => if c.cl.contains [b] then .inl true else if isNl b then .inl false else .inr (if c.esc && b == 92 then 1 else 0)
  | 1 => if isNl b then .inl false else .inr 0
  | 2 => if c.cl.contains [b] || isNl b then .inl false else .inr (if c.esc && b == 92 then 3 else 4)
  | 3 => if isNl b then .inl false else .inr 4
  | _ => .inl (c.cl.contains [b])

/-- A closing delimiter comes before the line end. -/
def shut (c : Construct) : (st : Nat) → List Nat → Bool
  | _, [] => false
  | st, b :: r => match c.look st b with
    | .inl x => x
    | .inr st' => c.shut st' r

/-- The construct opens at the head of the text. -/
def opens (c : Construct) (l : List Nat) : Bool :=
  c.op.isPrefixOf l && (!c.soft || c.shut (if c.one then 2 else 0) (l.drop c.op.length))

/-- The closing delimiter at the head of the text does not close, as another one follows. -/
def again (c : Construct) (l : List Nat) : Bool :=
  c.last && match c.closer l with | some x => c.shut 0 (l.drop x.length) | none => false

/-- The element for the opening delimiter of the construct `i`. -/
def opening (c : Construct) (i : Nat) : Tok := ⟨c.op.length, c.opLab.getD c.lab, if c.forbid then .bad else if c.plain then .code else .inside i⟩

/-- How the reading goes on after a character inside the construct `i`. -/
def next (c : Construct) (i : Nat) : Mode := if c.one then .closing i else .inside i

end Construct

/-- The constructs of a language; the first one that opens is taken. -/
abbrev Lexis := List Construct

/-- The element at the head of the text `l` inside the construct `i`; `again`: it is no closing delimiter. -/
def tokIn (i : Nat) (c : Construct) (again : Bool) (l : List Nat) : Tok :=
  let b := l.headD 0
  match (if again then none else c.closer l) with
  | some x => ⟨x.length, if c.clMark then c.lab else .lblank, if c.one || c.avoid.contains x then .bad else .code⟩
  | none =>
    if isNl b then ⟨1, .lblank, if c.cl.isEmpty then .code else if c.lines then .inside i else .bad⟩
    else if c.esc && b == 92 then
      (if isNl (l.getD 1 0) then ⟨1, if c.escMark then c.lab else .lblank, .escaped i⟩ else ⟨if c.pairs then 2 else 1, c.lab, c.next i⟩)
    else ⟨1, if isWhite b && !c.wsMark then .lblank else c.lab, c.next i⟩

/-- A byte outside of constructs. -/
def tokCode (l : List Nat) : Tok := ⟨1, if isWhite (l.headD 0) then .lblank else .lcode, .code⟩

namespace Lexis
variable (L : Lexis)

/-- The element at the head of the text `l`. -/
def tok : Mode → List Nat → Tok
  | .bad, _ => ⟨1, .lblank, .bad⟩
  | .code, l =>
    match L.findIdx? (·.opens l) with
    | some i => match L[i]? with
      | some c => c.opening i
      | none => ⟨1, .lblank, .bad⟩
    | none => tokCode l
  | .inside i, l => match L[i]? with | some c => tokIn i c (c.again l) l | none => ⟨1, .lblank, .bad⟩
  | .escaped i, l => match L[i]? with
    | some c =>
      if c.escNl then ⟨1, .lblank, if l.headD 0 == 13 then .escapedCr i else .inside i⟩
      else ⟨1, .lblank, if c.cl.isEmpty then .code else .bad⟩
    | none => ⟨1, .lblank, .bad⟩
  | .escapedCr i, l => match L[i]? with
    | some c => if l.headD 0 == 10 then ⟨1, .lblank, .inside i⟩ else tokIn i c (c.again l) l
    | none => ⟨1, .lblank, .bad⟩
  | .closing i, l => match L[i]? with
    | some c => ⟨1, if c.clMark then c.lab else .lblank, if c.cl.contains [l.headD 0] then .code else .bad⟩
    | none => ⟨1, .lblank, .bad⟩

/-- The labels of all bytes of a text, and where the reading is at its end.  `skip` bytes belong to an element that
has been labelled already. -/
def scan : Mode → (skip : Nat) → Kind → List Nat → List Kind × Mode
  | m, _, _, [] => ([], m)
  | m, k + 1, lb, _ :: r => let x := scan m k lb r; (lb :: x.1, x.2)
  | m, 0, _, b :: r =>
    let t := L.tok m (b :: r)
    let x := scan t.mode (t.n - 1) t.lab r
    (t.lab :: x.1, x.2)

/-- A text may end outside of all constructs or in one that ends with the line. -/
def endOk : Mode → Bool
  | .code => true
  | .inside i => match L[i]? with | some c => c.cl.isEmpty | none => false
  | _ => false

/-- The reading of a buffer. -/
def all (buf : List Byte) : List Kind × Mode := L.scan .code 0 .lblank (buf.map (·.toNat))

/-- The labels of the bytes of a buffer. -/
def labels (buf : List Byte) : List Kind := (L.all buf).1

/-- Every construct is closed, and has line ends inside only where allowed. -/
def WellFormed (buf : List Byte) : Prop := L.endOk (L.all buf).2 = true

instance (buf : List Byte) : Decidable (L.WellFormed buf) := by unfold WellFormed; infer_instance

/-- The kind of the line `[x, y)`: code if it has a byte of code, else comment if it has a byte of comment, else blank. -/
def lineKind (buf : List Byte) (x y : Nat) : Kind :=
  let l := ((L.labels buf).drop x).take (y - x)
  if l.contains .lcode then .lcode else if l.contains .lcomment then .lcomment else .lblank

/-- The lines that a report is due for, with their kinds: all terminated ones, and the text after the last line end if it
has code or comment. -/
def lines (buf : List Byte) : List (Nat × Nat × Kind) :=
  (terminated buf).map (fun x => (x.1, x.2, L.lineKind buf x.1 x.2)) ++
  (let k := L.lineKind buf (lastStart buf) buf.length
   if k = .lblank then [] else [(lastStart buf, buf.length, k)])

end Lexis

/-- The report `r` is for the line: it has its kind and its end, and its start unless the line is blank. -/
def ForLine (x : Nat × Nat × Kind) (r : Rep) : Prop :=
  r.kind = x.2.2 ∧ r.e = x.2.1 ∧ x.1 ≤ r.s ∧ r.s < r.e ∧ (r.kind ≠ .lblank → r.s = x.1)

end Ohcount.Ragel
