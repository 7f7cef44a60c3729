import Verif.RagelCheck

/-!
The lines of a buffer, independently of any scanner, and what it means that a list of
callbacks reports every line once.
-/

namespace Ohcount.Ragel

/-- A byte that is neither space, tab, line feed, form feed nor carriage return. -/
def isInk (b : Byte) : Bool := !(b == 32 || b == 9 || b == 10 || b == 12 || b == 13)

/-- Some byte in `[x, y)` is not white space. -/
def ink (buf : List Byte) (x y : Nat) : Prop := ∃ i b, x ≤ i ∧ i < y ∧ buf[i]? = some b ∧ isInk b = true

/-- Positions of all line ends. -/
def lineEnds (buf : List Byte) : List Nat := (List.range (buf.length + 1)).filter (lineEnd buf)

/-- The terminated lines of a buffer as pairs of start and end. -/
def terminated (buf : List Byte) : List (Nat × Nat) := (0 :: lineEnds buf).zip (lineEnds buf)

/-- Where the text after the last line end starts. -/
def lastStart (buf : List Byte) : Nat := (lineEnds buf).getLastD 0

/-- The bytes of a line decide whether it is blank. -/
def blankLine (buf : List Byte) (x y : Nat) : Bool := ((buf.drop x).take (y - x)).all fun b => !isInk b

/-- The lines that a report is due for: all terminated ones, and the text after the last
line end if it is not blank. -/
def dueLines (buf : List Byte) : List (Nat × Nat) :=
  terminated buf ++ (if blankLine buf (lastStart buf) buf.length then [] else [(lastStart buf, buf.length)])

/-- Two lists of the same length whose elements are related in order. -/
inductive Each {α β : Type} (R : α → β → Prop) : List α → List β → Prop
  | nil : Each R [] []
  | cons {a b l r} : R a b → Each R l r → Each R (a :: l) (b :: r)

theorem Each.snoc {α β : Type} {R : α → β → Prop} {l : List α} {r : List β} (h : Each R l r) {a : α} {b : β}
    (hab : R a b) : Each R (l ++ [a]) (r ++ [b]) := by
  induction h with
  | nil => exact .cons hab .nil
  | cons h1 _ ih => exact .cons h1 ih

theorem Each.length {α β : Type} {R : α → β → Prop} {l : List α} {r : List β} (h : Each R l r) :
    l.length = r.length := by
  induction h with
  | nil => rfl
  | cons _ _ ih => simp [ih]

theorem Each.imp {α β : Type} {R S : α → β → Prop} (hi : ∀ a b, R a b → S a b) {l : List α} {r : List β}
    (h : Each R l r) : Each S l r := by
  induction h with
  | nil => exact .nil
  | cons h1 _ ih => exact .cons (hi _ _ h1) ih

/-- The report `r` covers the line `[x, e)`: it ends where the line ends; a code or comment
report starts where the line starts, a blank report somewhere in the line.
`s1`: reported as code or comment only if not blank; `s2`: not blank only if so reported. -/
def Covers (s1 s2 : Bool) (buf : List Byte) (x : Nat × Nat) (r : Rep) : Prop :=
  r.e = x.2 ∧ x.1 ≤ r.s ∧ r.s < r.e ∧ (r.kind ≠ .lblank → r.s = x.1) ∧
  (s1 = true → r.kind ≠ .lblank → blankLine buf x.1 x.2 = false) ∧
  (s2 = true → blankLine buf x.1 x.2 = false → r.kind ≠ .lblank)

theorem blankLine_iff (buf : List Byte) (x y : Nat) : blankLine buf x y = false ↔ ink buf x y := by
  unfold blankLine ink
  rw [← Bool.not_eq_true, List.all_eq_true]
  constructor
  · intro h
    have h' : ∃ b ∈ (buf.drop x).take (y - x), isInk b = true := by
      apply Decidable.byContradiction
      intro hn
      apply h
      intro b hb
      cases hi : isInk b with
      | false => rfl
      | true => exact absurd ⟨b, hb, hi⟩ hn
    obtain ⟨b, hb, hi⟩ := h'
    obtain ⟨i, hi2, hg⟩ := List.getElem_of_mem hb
    simp only [List.length_take, List.length_drop] at hi2
    simp only [List.getElem_take, List.getElem_drop] at hg
    refine ⟨x + i, b, by omega, by omega, ?_, hi⟩
    rw [List.getElem?_eq_getElem (by omega), hg]
  · rintro ⟨i, b, h1, h2, h3, h4⟩ h
    have hl := (List.getElem?_eq_some_iff.mp h3).1
    have hm : b ∈ (buf.drop x).take (y - x) := by
      rw [List.mem_iff_getElem?]
      refine ⟨i - x, ?_⟩
      rw [List.getElem?_take, if_pos (by omega), List.getElem?_drop]
      rw [show x + (i - x) = i by omega]; exact h3
    have := h b hm
    rw [h4] at this; cases this

/-- No line ends strictly between `x` and `y`. -/
def noEnd (buf : List Byte) (x y : Nat) : Prop := ∀ e, x < e → e < y → lineEnd buf e = false

/-- The reports `l` cover, one each and in order, the lines from the start to `x`. -/
inductive Tiled (s1 s2 : Bool) (buf : List Byte) : List Rep → Nat → Prop
  | nil : Tiled s1 s2 buf [] 0
  | snoc {l x r} : Tiled s1 s2 buf l x → x < r.e → noEnd buf x r.e → lineEnd buf r.e = true →
      Covers s1 s2 buf (x, r.e) r → Tiled s1 s2 buf (l ++ [r]) r.e

theorem lineEnd_le {buf : List Byte} {e : Nat} (h : lineEnd buf e = true) : e ≤ buf.length := by
  cases e with
  | zero => omega
  | succ p =>
    simp only [lineEnd] at h
    cases hb : buf[p]? with
    | none => rw [hb] at h; cases h
    | some b => exact (List.getElem?_eq_some_iff.mp hb).1

/-- Line ends up to `x`. -/
def endsTo (buf : List Byte) (x : Nat) : List Nat := (List.range (x + 1)).filter (lineEnd buf)

theorem endsTo_same {buf : List Byte} {x : Nat} : ∀ y, x ≤ y → (∀ e, x < e → e ≤ y → lineEnd buf e = false) →
    endsTo buf y = endsTo buf x
  | 0, h, _ => by have : x = 0 := by omega
                  subst this; rfl
  | y + 1, h, hn => by
    by_cases hxy : x = y + 1
    · subst hxy; rfl
    · have ih := endsTo_same y (by omega) (fun e h1 h2 => hn e h1 (by omega))
      have hl := hn (y + 1) (by omega) (by omega)
      unfold endsTo at ih ⊢
      rw [List.range_succ, List.filter_append, ih, List.filter_cons, hl]
      simp

theorem endsTo_snoc {buf : List Byte} {x e : Nat} (h : x < e) (hn : noEnd buf x e) (he : lineEnd buf e = true) :
    endsTo buf e = endsTo buf x ++ [e] := by
  cases e with
  | zero => omega
  | succ y =>
    have h1 := endsTo_same (buf := buf) y (show x ≤ y by omega) (fun e h1 h2 => hn e h1 (by omega))
    unfold endsTo at h1 ⊢
    rw [List.range_succ, List.filter_append, h1, List.filter_cons, he]
    simp

theorem zip_snoc : ∀ (l : List Nat) (a e : Nat), (a :: (l ++ [e])).zip (l ++ [e]) = (a :: l).zip l ++ [(l.getLastD a, e)]
  | [], a, e => rfl
  | b :: l, a, e => by
    have := zip_snoc l b e
    simp only [List.cons_append, List.zip_cons_cons] at this ⊢
    rw [this]
    congr 3
    cases l <;> rfl

theorem Tiled.spec {s1 s2 : Bool} {buf : List Byte} {l : List Rep} {x : Nat} (h : Tiled s1 s2 buf l x) :
    Each (Covers s1 s2 buf) ((0 :: endsTo buf x).zip (endsTo buf x)) l ∧ (endsTo buf x).getLastD 0 = x ∧ x ≤ buf.length := by
  induction h with
  | nil =>
    refine ⟨?_, rfl, Nat.zero_le _⟩
    have : endsTo buf 0 = [] := rfl
    rw [this]; exact .nil
  | @snoc l x r h1 hx hn he hc ih =>
    rw [endsTo_snoc hx hn he]
    refine ⟨?_, by simp, lineEnd_le he⟩
    rw [zip_snoc, ih.2.1]
    exact ih.1.snoc hc

/-- If the lines up to `x` are covered and no line ends after `x`, all lines are covered. -/
theorem Tiled.all {s1 s2 : Bool} {buf : List Byte} {l : List Rep} {x : Nat} (h : Tiled s1 s2 buf l x)
    (hn : ∀ e, x < e → e ≤ buf.length → lineEnd buf e = false) :
    Each (Covers s1 s2 buf) (terminated buf) l ∧ lastStart buf = x := by
  have hs := h.spec
  have : lineEnds buf = endsTo buf x := endsTo_same buf.length hs.2.2 hn
  unfold terminated lastStart
  rw [this]
  exact ⟨hs.1, hs.2.1⟩

end Ohcount.Ragel
