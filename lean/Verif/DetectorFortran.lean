import Verif.DetectorEvidence
/-
C61, continued: fixed and free form of Fortran files.
-/

namespace Ohcount.Detector

open Ohcount Ohcount.Tables Ohcount.Diff

/-! ### Specification -/

/-- Is there an ampersand in columns 7 to 72, outside of quotes and comments? The arguments are the open quote, the column and the text
from that column on. An exclamation mark in column 6 starts no comment. -/
def ampersand : Option Byte → Nat → Bytes → Bool
  | _, _, [] => false
  | none, i, c :: t =>
    if c = 33 ∧ i ≠ 6 then false
    else if c = 34 ∨ c = 39 then ampersand (some c) (i + 1) t
    else (c == 38 && decide (7 ≤ i ∧ i ≤ 72)) || ampersand none (i + 1) t
  | some q, i, c :: t => ampersand (if c = q then none else some q) (i + 1) t

/-- Is the line taken for fixed form? A comment line is. Otherwise a tab at the start stands for five blanks. The first five columns are
digits and blanks, up to a comment; if there is none the line has these five columns, column 6 is a blank or zero unless they are all
blank, and no ampersand follows. -/
def fixedLine : Bytes → Bool
  | [] => true
  | c :: t =>
    [67, 99, 42, 33].contains c ||
    ((c == 32 || c == 9 || isdigit c) &&
      let cols := if c = 9 then [32, 32, 32, 32, 32] ++ t else c :: t
      let label := (cols.take 5).takeWhile fun b => b != 33
      label.all (fun b => isdigit b || b == 32) &&
      (decide (label.length < (cols.take 5).length) ||
        (decide (label.length = 5) && (label.all (fun b => b == 32) || [32, 48].contains ((cols.drop 5).headD 0)) &&
          !ampersand none 6 (cols.drop 5))))

/-! ### The statement field -/

abbrev lineOf (p : Bytes) : Bytes := p.takeWhile notNl
abbrev restOf (p : Bytes) : Bytes := p.dropWhile notNl

theorem lineOf_nl {c : Byte} (h : isNl c = true) (p : Bytes) : lineOf (c :: p) = [] ∧ restOf (c :: p) = c :: p := by
  have : notNl c = false := by simp [notNl, h]
  simp [lineOf, restOf, List.takeWhile_cons, List.dropWhile_cons, this]

theorem lineOf_other {c : Byte} (h : isNl c = false) (p : Bytes) : lineOf (c :: p) = c :: lineOf p ∧ restOf (c :: p) = restOf p := by
  have : notNl c = true := by simp [notNl, h]
  simp [lineOf, restOf, List.takeWhile_cons, List.dropWhile_cons, this]

/-- Where a quote ends. -/
theorem quoted_spec (q : Byte) (hq : isNl q = false) : ∀ (p : Bytes) (i : Nat), ∃ p' i', quoted q p i = (p', i') ∧ p'.length ≤ p.length ∧ i ≤ i' ∧
    restOf p' = restOf p ∧
    ((∃ t, p' = q :: t ∧ ampersand (some q) i (lineOf p) = ampersand none (i' + 1) (lineOf t)) ∨
     (lineOf p' = [] ∧ ampersand (some q) i (lineOf p) = false))
  | [], i => ⟨[], i, rfl, Nat.le_refl _, Nat.le_refl _, rfl, .inr ⟨rfl, rfl⟩⟩
  | c :: p, i => by
    unfold quoted
    by_cases hc : c = q
    · subst hc
      refine ⟨c :: p, i, by simp, Nat.le_refl _, Nat.le_refl _, rfl, .inl ⟨p, rfl, ?_⟩⟩
      rw [(lineOf_other hq p).1]
      simp [ampersand]
    · by_cases hn : isNl c = true
      · refine ⟨c :: p, i, by simp [hn], Nat.le_refl _, Nat.le_refl _, rfl, .inr ⟨(lineOf_nl hn p).1, ?_⟩⟩
        rw [(lineOf_nl hn p).1]; rfl
      · have hn' : isNl c = false := by simpa using hn
        obtain ⟨p', i', h1, h2, h3, h4, h5⟩ := quoted_spec q hq p (i + 1)
        refine ⟨p', i', by simp [hc, hn', h1], by simp; omega, by omega, by rw [h4, (lineOf_other hn' p).2], ?_⟩
        rw [(lineOf_other hn' p).1]
        simpa [ampersand, hc] using h5

theorem fortranLine_cons (n : Nat) (c0 : Byte) (p1 : Bytes) (i : Nat) (bl : Bool) (h : isNl c0 = false) : fortranLine (n + 1) (c0 :: p1) i bl =
    (if (decide (i + 1 ≤ 5) && !isdigit (hd p1) && hd p1 != 32 && hd p1 != 33) then some (.error ())
     else if (i + 1 == 6 && !(if i + 1 ≤ 5 then bl && hd p1 == 32 else bl) && hd p1 != 32 && hd p1 != 48) then some (.error ())
     else if (hd p1 == 33 && i + 1 != 6) then fortranLine n (restOf p1) (i + 1) (if i + 1 ≤ 5 then bl && hd p1 == 32 else bl)
     else if (decide ((skipQuote 39 (skipQuote 34 p1 (i + 1)).1 (skipQuote 34 p1 (i + 1)).2).2 > 6) &&
          decide ((skipQuote 39 (skipQuote 34 p1 (i + 1)).1 (skipQuote 34 p1 (i + 1)).2).2 ≤ 72) &&
          hd (skipQuote 39 (skipQuote 34 p1 (i + 1)).1 (skipQuote 34 p1 (i + 1)).2).1 == 38) then some (.error ())
     else fortranLine n (skipQuote 39 (skipQuote 34 p1 (i + 1)).1 (skipQuote 34 p1 (i + 1)).2).1
       (skipQuote 39 (skipQuote 34 p1 (i + 1)).1 (skipQuote 34 p1 (i + 1)).2).2 (if i + 1 ≤ 5 then bl && hd p1 == 32 else bl)) := by
  conv => lhs; unfold fortranLine
  dsimp only
  rw [h]
  rfl

theorem fortranLine_end (n : Nat) (p : Bytes) (i : Nat) (bl : Bool) (h : lineOf p = []) : fortranLine (n + 1) p i bl = some (.ok (restOf p)) := by
  cases p with
  | nil => rfl
  | cons c p =>
    have hn : isNl c = true := by
      cases hz : isNl c with
      | true => rfl
      | false => rw [(lineOf_other hz p).1] at h; cases h
    unfold fortranLine
    dsimp only
    rw [if_pos hn, (lineOf_nl hn p).2]

def verdict (bad : Bool) (p : Bytes) : Option (Except Unit Bytes) := if bad then some (.error ()) else some (.ok (restOf p))

theorem quote_step (n : Nat) (ih : ∀ (c0 : Byte) (p1 : Bytes) (i : Nat) (bl : Bool), isNl c0 = false → p1.length + 1 < n → 6 ≤ i →
      fortranLine n (c0 :: p1) i bl = verdict (ampersand none (i + 1) (lineOf p1)) p1)
    (q : Byte) (hq : isNl q = false) (t : Bytes) (i : Nat) (bl : Bool) (hi : 5 ≤ i) (ht : t.length + 1 < n) :
    fortranLine n (quoted q t (i + 1)).1 (quoted q t (i + 1)).2 bl = verdict (ampersand (some q) (i + 1) (lineOf t)) t := by
  obtain ⟨p', i', h1, h2, h3, h4, h5⟩ := quoted_spec q hq t (i + 1)
  rw [h1]
  rcases h5 with ⟨u, rfl, e⟩ | ⟨he, e⟩
  · rw [ih q u i' bl hq (by simp at h2; omega) (by omega), e]
    unfold verdict
    rw [← h4, (lineOf_other hq u).2]
  · match n, ht with
    | n + 1, _ =>
      rw [fortranLine_end n _ _ _ he, e, h4]; rfl

theorem lineOf_restOf (p : Bytes) : lineOf (restOf p) = [] := by
  induction p with
  | nil => rfl
  | cons c p ih =>
    cases hz : isNl c with
    | true => rw [(lineOf_nl hz p).2, (lineOf_nl hz p).1]
    | false => rw [(lineOf_other hz p).2, ih]

theorem restOf_restOf (p : Bytes) : restOf (restOf p) = restOf p := by
  induction p with
  | nil => rfl
  | cons c p ih =>
    cases hz : isNl c with
    | true => rw [(lineOf_nl hz p).2, (lineOf_nl hz p).2]
    | false => rw [(lineOf_other hz p).2, ih]

theorem lineOf_hd {p : Bytes} {c : Byte} (h : lineOf p = []) (h0 : c ≠ 0) (hc : isNl c = false) : hd p ≠ c := by
  intro e
  cases p with
  | nil => exact h0 e.symm
  | cons d p =>
    have e' : d = c := e
    subst e'
    rw [(lineOf_other hc p).1] at h; cases h

theorem fortran_text : ∀ (n : Nat) (c0 : Byte) (p1 : Bytes) (i : Nat) (bl : Bool), isNl c0 = false → p1.length + 1 < n → 5 ≤ i →
    fortranLine n (c0 :: p1) i bl =
      verdict ((i == 5 && !bl && hd p1 != 32 && hd p1 != 48) || ampersand none (i + 1) (lineOf p1)) p1
  | 0, _, p1, _, _, _, h, _ => by omega
  | n + 1, c0, p1, i, bl, h0, h, hi => by
    have ih : ∀ (c0 : Byte) (p1 : Bytes) (i : Nat) (bl : Bool), isNl c0 = false → p1.length + 1 < n → 6 ≤ i →
        fortranLine n (c0 :: p1) i bl = verdict (ampersand none (i + 1) (lineOf p1)) p1 := by
      intro c0 p1 i bl h0 h hi
      have := fortran_text n c0 p1 i bl h0 h (by omega)
      rw [show (i == 5) = false by simp; omega] at this
      simpa using this
    obtain ⟨m, rfl⟩ : ∃ m, n = m + 1 := ⟨n - 1, by omega⟩
    rw [fortranLine_cons _ _ _ _ _ h0]
    have h1 : decide (i + 1 ≤ 5) = false := by simp; omega
    have h2 : ¬ (i + 1 ≤ 5) := by omega
    have h3 : (i + 1 == 6) = (i == 5) := by simp
    simp only [h1, h2, h3, Bool.false_and, Bool.false_eq_true, if_false]
    by_cases hb : (i == 5 && !bl && hd p1 != 32 && hd p1 != 48) = true
    · rw [if_pos hb, hb]; rfl
    rw [if_neg hb]
    have hb' : (i == 5 && !bl && hd p1 != 32 && hd p1 != 48) = false := by simpa using hb
    rw [hb', Bool.false_or]
    cases p1 with
    | nil => simp [hd, skipQuote, fortranLine, verdict, ampersand, lineOf, h1]
    | cons c t =>
      simp only [List.length_cons] at h
      show (if (c == 33 && i + 1 != 6) = true then _ else _) = _
      by_cases hn : isNl c = true
      · have hl := lineOf_nl hn t
        have hc : c = 13 ∨ c = 10 := by simpa [isNl] using hn
        have e34 : skipQuote 34 (c :: t) (i + 1) = (c :: t, i + 1) := by rcases hc with rfl | rfl <;> rfl
        have e39 : skipQuote 39 (c :: t) (i + 1) = (c :: t, i + 1) := by rcases hc with rfl | rfl <;> rfl
        rw [e34, e39, if_neg (by rcases hc with rfl | rfl <;> simp)]
        dsimp only
        rw [if_neg (by rcases hc with rfl | rfl <;> simp [hd]), fortranLine_end m _ _ _ hl.1, hl.1]
        rfl
      · have hn' : isNl c = false := by simpa using hn
        have hl := lineOf_other hn' t
        rw [hl.1]
        unfold verdict
        rw [hl.2]
        by_cases hx : c = 33 ∧ i + 1 ≠ 6
        · rw [if_pos (by simpa using hx)]
          have : lineOf (restOf t) = [] := lineOf_restOf t
          rw [fortranLine_end m _ _ _ this]
          rw [show ampersand none (i + 1) (c :: lineOf t) = false by unfold ampersand; rw [if_pos hx]]
          have e2 : restOf (restOf t) = restOf t := restOf_restOf t
          rw [e2]; rfl
        · rw [if_neg (by simpa using hx)]
          by_cases q34 : c = 34
          · subst q34
            rw [show skipQuote 34 (34 :: t) (i + 1) = quoted 34 t (i + 1 + 1) from rfl]
            obtain ⟨p', i', g1, g2, g3, g4, g5⟩ := quoted_spec 34 (by decide) t (i + 1 + 1)
            have g6 : hd p' ≠ 39 ∧ hd p' ≠ 38 := by
              rcases g5 with ⟨u, rfl, _⟩ | ⟨he, _⟩
              · exact ⟨(by decide : (34 : Byte) ≠ 39), (by decide : (34 : Byte) ≠ 38)⟩
              · exact ⟨lineOf_hd he (by decide) (by decide), lineOf_hd he (by decide) (by decide)⟩
            have g7 : skipQuote 39 p' i' = (p', i') := by
              cases p' with
              | nil => rfl
              | cons d u => unfold skipQuote; dsimp only; rw [if_neg (by simpa [hd] using g6.1)]
            have := quote_step (m + 1) ih 34 (by decide) t (i + 1) bl (by omega) (by omega)
            rw [g1] at this ⊢
            dsimp only at this ⊢
            rw [g7]
            dsimp only
            rw [if_neg (by simp [g6.2]), this]
            unfold verdict
            rw [show ampersand none (i + 1) (34 :: lineOf t) = ampersand (some 34) (i + 1 + 1) (lineOf t) by
              conv => lhs; unfold ampersand
              rw [if_neg hx, if_pos (.inl rfl)]]
          · rw [show skipQuote 34 (c :: t) (i + 1) = (c :: t, i + 1) by unfold skipQuote; dsimp only; rw [if_neg (by simpa using q34)]]
            dsimp only
            by_cases q39 : c = 39
            · subst q39
              rw [show skipQuote 39 (39 :: t) (i + 1) = quoted 39 t (i + 1 + 1) from rfl]
              obtain ⟨p', i', g1, g2, g3, g4, g5⟩ := quoted_spec 39 (by decide) t (i + 1 + 1)
              have g6 : hd p' ≠ 38 := by
                rcases g5 with ⟨u, rfl, _⟩ | ⟨he, _⟩
                · exact (by decide : (39 : Byte) ≠ 38)
                · exact lineOf_hd he (by decide) (by decide)
              have := quote_step (m + 1) ih 39 (by decide) t (i + 1) bl (by omega) (by omega)
              rw [g1] at this ⊢
              dsimp only at this ⊢
              rw [if_neg (by simp [g6]), this]
              unfold verdict
              rw [show ampersand none (i + 1) (39 :: lineOf t) = ampersand (some 39) (i + 1 + 1) (lineOf t) by
                conv => lhs; unfold ampersand
                rw [if_neg hx, if_pos (.inr rfl)]]
            · rw [show skipQuote 39 (c :: t) (i + 1) = (c :: t, i + 1) by unfold skipQuote; dsimp only; rw [if_neg (by simpa using q39)]]
              dsimp only
              rw [show ampersand none (i + 1) (c :: lineOf t) = ((c == 38 && decide (7 ≤ i + 1 ∧ i + 1 ≤ 72)) || ampersand none (i + 1 + 1) (lineOf t)) by
                conv => lhs; unfold ampersand
                rw [if_neg hx, if_neg (by rintro (e | e) <;> contradiction)]]
              show (if (_ && _ && c == 38) = true then _ else _) = _
              rw [ih c t (i + 1) bl hn' (by omega) (by omega)]
              have ee : (decide (i + 1 > 6) && decide (i + 1 ≤ 72) && c == 38) = (c == 38 && decide (7 ≤ i + 1 ∧ i + 1 ≤ 72)) := by
                rw [Bool.and_comm (c == 38)]
                congr 1
                rw [Bool.eq_iff_iff]; simp; omega
              rw [ee]
              cases (c == 38 && decide (7 ≤ i + 1 ∧ i + 1 ≤ 72)) <;> simp [verdict]

/-! ### The label field -/

def labelOk : Nat → Bool → Bytes → Bool
  | 0, bl, l => (bl || [32, 48].contains (l.headD 0)) && !ampersand none 6 l
  | _ + 1, _, [] => false
  | k + 1, bl, c :: t => if c = 33 then true else (isdigit c || c == 32) && labelOk k (bl && c == 32) t

theorem fortran_label : ∀ (k : Nat) (n : Nat) (c0 : Byte) (p1 : Bytes) (i : Nat) (bl : Bool), isNl c0 = false → p1.length + 1 < n → i + k = 5 →
    fortranLine n (c0 :: p1) i bl = verdict (!labelOk k bl (lineOf p1)) p1
  | 0, n, c0, p1, i, bl, h0, h, hi => by
    have hi' : i = 5 := by omega
    subst hi'
    rw [fortran_text n c0 p1 5 bl h0 h (by omega)]
    congr 1
    have e : (hd p1 != 32 && hd p1 != 48) = !([32, 48] : List Byte).contains ((lineOf p1).headD 0) := by
      cases p1 with
      | nil => decide
      | cons c t =>
        cases hz : isNl c with
        | true =>
          rw [(lineOf_nl hz t).1]
          have hc : c = 13 ∨ c = 10 := by simpa [isNl] using hz
          rcases hc with rfl | rfl <;> rfl
        | false =>
          rw [(lineOf_other hz t).1]
          show (c != 32 && c != 48) = _
          simp [bne]
          rfl
    unfold labelOk
    rw [Bool.not_and, Bool.not_not, Bool.not_or, ← e]
    simp [Bool.and_assoc]
  | k + 1, n, c0, p1, i, bl, h0, h, hi => by
    obtain ⟨m, rfl⟩ : ∃ m, n = m + 1 := ⟨n - 1, by omega⟩
    rw [fortranLine_cons _ _ _ _ _ h0]
    have h1 : decide (i + 1 ≤ 5) = true := by simp; omega
    have h2 : (i + 1 ≤ 5) := by omega
    have h3 : (i + 1 == 6) = false := by simp; omega
    rw [h1, h3]
    simp only [Bool.false_and, Bool.true_and, Bool.false_eq_true, if_false, if_pos h2]
    cases p1 with
    | nil => rfl
    | cons c t =>
      simp only [List.length_cons] at h
      show (if (!isdigit c && c != 32 && c != 33) = true then _ else if (c == 33 && i + 1 != 6) = true then _ else _) = _
      cases hz : isNl c with
      | true =>
        rw [(lineOf_nl hz t).1]
        have hc : c = 13 ∨ c = 10 := by simpa [isNl] using hz
        rcases hc with rfl | rfl <;> rfl
      | false =>
        have hl := lineOf_other hz t
        rw [hl.1]
        unfold verdict
        rw [hl.2]
        unfold labelOk
        by_cases hc : c = 33
        · subst hc
          rw [if_neg (by simp), if_pos (by simp; omega), if_pos rfl]
          obtain ⟨m', rfl⟩ : ∃ m', m = m' + 1 := ⟨m - 1, by omega⟩
          rw [fortranLine_end m' _ _ _ (lineOf_restOf t), restOf_restOf]; rfl
        · rw [if_neg hc]
          by_cases hd' : isdigit c = true ∨ c = 32
          · have hb : (isdigit c || c == 32) = true := by simpa using hd'
            have hr : c ≠ 34 ∧ c ≠ 39 ∧ c ≠ 38 :=
              ⟨fun e => by subst e; exact absurd hb (by decide), fun e => by subst e; exact absurd hb (by decide),
                fun e => by subst e; exact absurd hb (by decide)⟩
            rw [if_neg (by simp; intro a b; simp [a, b] at hd'), if_neg (by simp [hc]), hb, Bool.true_and,
              show skipQuote 34 (c :: t) (i + 1) = (c :: t, i + 1) by unfold skipQuote; dsimp only; rw [if_neg (by simpa using hr.1)]]
            dsimp only
            rw [show skipQuote 39 (c :: t) (i + 1) = (c :: t, i + 1) by unfold skipQuote; dsimp only; rw [if_neg (by simpa using hr.2.1)]]
            dsimp only
            rw [if_neg (by simp [hd]; intro _ _; exact hr.2.2), fortran_label k m c t (i + 1) _ hz (by omega) (by omega)]
            rfl
          · have hb : (isdigit c || c == 32) = false := by
              cases hz : (isdigit c || c == 32) with
              | false => rfl
              | true => exact absurd (by simpa using hz) hd'
            rw [if_pos (by
              simp only [Bool.or_eq_false_iff] at hb
              simp [hb.1, hc]; simpa using hb.2), hb]
            rfl

/-- The condition on the columns of a statement line. -/
def fixedCols (cols : Bytes) : Bool :=
  let label := (cols.take 5).takeWhile fun b => b != 33
  label.all (fun b => isdigit b || b == 32) &&
  (decide (label.length < (cols.take 5).length) ||
    (decide (label.length = 5) && (label.all (fun b => b == 32) || [32, 48].contains ((cols.drop 5).headD 0)) &&
      !ampersand none 6 (cols.drop 5)))

theorem takeWhile_all {f : Byte → Bool} : ∀ (p l : Bytes), (∀ b ∈ p, f b = true) → (p ++ l).takeWhile f = p ++ l.takeWhile f
  | [], _, _ => rfl
  | c :: p, l, h => by
    rw [List.cons_append, List.takeWhile_cons, if_pos (h c (.head _)), takeWhile_all p l (fun b hb => h b (.tail _ hb))]; rfl

theorem labelByte {b : Byte} (h : (isdigit b || b == 32) = true) : (b != 33) = true := by
  rw [bne_iff_ne]; rintro rfl; exact absurd h (by decide)

theorem fixedCols_eq : ∀ (k : Nat) (pre l : Bytes), pre.length + k = 5 → (∀ b ∈ pre, (isdigit b || b == 32) = true) →
    fixedCols (pre ++ l) = labelOk k (pre.all fun b => b == 32) l
  | 0, pre, l, hk, hp => by
    have h1 : (pre ++ l).take 5 = pre := by rw [show 5 = pre.length by omega, List.take_left]
    have h2 : (pre ++ l).drop 5 = l := by rw [show 5 = pre.length by omega, List.drop_left]
    have h3 := takeWhile_all (f := fun b => b != 33) pre [] (fun b hb => labelByte (hp b hb))
    simp only [List.append_nil, List.takeWhile_nil] at h3
    unfold fixedCols labelOk
    simp only [h1, h2, h3]
    rw [List.all_eq_true.mpr hp]
    simp [show pre.length = 5 by omega]
  | k + 1, pre, [], hk, hp => by
    have h1 : pre.take 5 = pre := List.take_of_length_le (by omega)
    have h3 := takeWhile_all (f := fun b => b != 33) pre [] (fun b hb => labelByte (hp b hb))
    simp only [List.append_nil, List.takeWhile_nil] at h3
    unfold fixedCols labelOk
    simp only [List.append_nil, h1, h3]
    simp
    omega
  | k + 1, pre, c :: t, hk, hp => by
    unfold labelOk
    by_cases hc : c = 33
    · subst hc
      rw [if_pos rfl]
      have h1 : (pre ++ 33 :: t).take 5 = pre ++ 33 :: t.take k := by
        rw [List.take_append, show 5 - pre.length = k + 1 by omega, List.take_of_length_le (by omega)]; rfl
      have h3 := takeWhile_all (f := fun b => b != 33) pre (33 :: t.take k) (fun b hb => labelByte (hp b hb))
      rw [List.takeWhile_cons, if_neg (by decide), List.append_nil] at h3
      unfold fixedCols
      simp only [h1, h3]
      rw [List.all_eq_true.mpr hp]
      simp
    · rw [if_neg hc]
      cases hd' : (isdigit c || c == 32) with
      | true =>
        have := fixedCols_eq k (pre ++ [c]) t (by simp; omega) (by
          intro b hb
          rcases List.mem_append.mp hb with hb | hb
          · exact hp b hb
          · rw [List.mem_singleton.mp hb]; exact hd')
        simp only [List.append_assoc, List.singleton_append, List.all_append, List.all_cons, List.all_nil, Bool.and_true] at this
        rw [this]; rfl
      | false =>
        have h1 : (pre ++ c :: t).take 5 = pre ++ c :: t.take k := by
          rw [List.take_append, show 5 - pre.length = k + 1 by omega, List.take_of_length_le (by omega)]; rfl
        have h3 := takeWhile_all (f := fun b => b != 33) pre (c :: t.take k) (fun b hb => labelByte (hp b hb))
        rw [List.takeWhile_cons, if_pos (by simpa using hc)] at h3
        unfold fixedCols
        simp only [h1, h3]
        simp [hd']

theorem fixedLine_cons (c : Byte) (t : Bytes) : fixedLine (c :: t) = ([67, 99, 42, 33].contains c ||
    ((isBlank c || isdigit c) && fixedCols (if c = 9 then [32, 32, 32, 32, 32] ++ t else c :: t))) := rfl

theorem fortranLoop_cons (n : Nat) (c : Byte) (p : Bytes) : fortranLoop (n + 1) (c :: p) =
    if isBlank c || isdigit c then
      (fortranLine ((c :: p).length + 1) (c :: p) (if c == 9 then 5 else 1) (isBlank c)).bind fun r =>
        match r with
        | .error _ => some true
        | .ok q => fortranLoop n (q.dropWhile isNl)
    else if c != 67 && c != 99 && c != 42 && c != 33 then some true
    else fortranLoop n ((restOf (c :: p)).dropWhile isNl) := rfl

/-- Free form is found as soon as a line is not of fixed form. -/
theorem fortranLoop_iff : ∀ (n : Nat) (p : Bytes), p.length < n → (∀ b, p.head? = some b → isNl b = false) →
    fortranLoop n p = some (!(textLines p).all fixedLine)
  | 0, _, h, _ => by omega
  | n + 1, [], _, _ => rfl
  | n + 1, c :: p, h, h0 => by
    have hc : isNl c = false := h0 c rfl
    have hl := lineOf_other hc p
    have hs := next_shorter (c :: p) (by simp)
    have hn : ∀ b, ((restOf (c :: p)).dropWhile isNl).head? = some b → isNl b = false := by
      intro b hb
      have hh := List.head?_dropWhile_not isNl (restOf (c :: p))
      rw [hb] at hh
      simpa using hh
    have ih := fortranLoop_iff n _ (Nat.lt_of_lt_of_le hs (by simp at h ⊢; omega)) hn
    rw [textLines_cons (c :: p), show (c :: p).takeWhile notNl = c :: lineOf p from hl.1, if_neg (by simp)]
    rw [List.all_append, Bool.not_and]
    simp only [List.all_cons, List.all_nil, Bool.and_true]
    rw [fortranLoop_cons]
    by_cases hst : (isBlank c || isdigit c) = true
    · rw [if_pos hst]
      have hlab : fortranLine ((c :: p).length + 1) (c :: p) (if c == 9 then 5 else 1) (isBlank c) = verdict (!fixedLine (c :: lineOf p)) p := by
        have hno : ([67, 99, 42, 33] : List Byte).contains c = false := by
          cases hz : ([67, 99, 42, 33] : List Byte).contains c with
          | false => rfl
          | true =>
            simp only [List.contains_cons, List.contains_nil, Bool.or_false, Bool.or_eq_true, beq_iff_eq] at hz
            rcases hz with rfl | rfl | rfl | rfl <;> exact absurd hst (by decide)
        rw [fixedLine_cons, hno, hst, Bool.false_or, Bool.true_and]
        by_cases h9 : c = 9
        · subst h9
          rw [if_pos rfl, fortran_label 0 _ 9 p _ _ hc (by simp) (by decide), fixedCols_eq 0 [32, 32, 32, 32, 32] (lineOf p) rfl (by decide)]
          rfl
        · have hdig : (isdigit c || c == 32) = true := by
            have : (c == 9) = false := by simpa using h9
            rw [isBlank, this, Bool.or_false] at hst
            rw [Bool.or_comm]; exact hst
          rw [if_neg h9, if_neg (by simpa using h9), fortran_label 4 _ c p 1 _ hc (by simp) rfl,
            show c :: lineOf p = [c] ++ lineOf p from rfl, fixedCols_eq 4 [c] (lineOf p) rfl (by simpa using hdig)]
          have : isBlank c = ([c] : Bytes).all fun b => b == 32 := by
            have : (c == 9) = false := by simpa using h9
            simp [isBlank, this]
          rw [this]
      rw [hlab]
      unfold verdict
      cases fixedLine (c :: lineOf p) with
      | false => rfl
      | true =>
        rw [if_neg (by decide), Option.bind_some]
        dsimp only
        rw [← hl.2, ih]; simp
    · rw [if_neg hst]
      have hst' : (isBlank c || isdigit c) = false := by simpa using hst
      have hfix : fixedLine (c :: lineOf p) = [67, 99, 42, 33].contains c := by
        rw [fixedLine_cons, hst']
        simp
      rw [hfix]
      by_cases hcm : ([67, 99, 42, 33] : List Byte).contains c = true
      · rw [if_neg (by
          simp only [List.contains_cons, List.contains_nil, Bool.or_eq_true, beq_iff_eq] at hcm
          rcases hcm with rfl | rfl | rfl | rfl | e <;> simp_all), ih, hcm]; rfl
      · rw [if_pos (by
          simp only [List.contains_cons, List.contains_nil, Bool.or_eq_true, beq_iff_eq] at hcm
          simp_all)]
        rw [show ([67, 99, 42, 33] : List Byte).contains c = false by simpa using hcm]; rfl

/-- The extensions of Fortran. -/
def fortranExts : List Bytes := [bs "f", bs "f03", bs "f08", bs "f77", bs "f90", bs "f95", bs "for", bs "fpp", bs "ftn"]

/-- C61, Fortran: free form iff the text starts with a line end or has a line that is not of fixed form. -/
theorem C61_fortran (o : Oracles) (st : Stack) (before : Byte) (stem c : Bytes) (disk : Option Bytes) (files : Option (List Bytes))
    (e : Bytes) (he : e ∈ fortranExts) :
    let r := detect o st before (source before (stem ++ bs "." ++ e) disk (some c) files)
    let free := (∃ b t, c = b :: t ∧ (b = 10 ∨ b = 13)) ∨ ∃ l ∈ textLines c, fixedLine l = false
    (free → r = some (some "fortranfree")) ∧ (¬ free → r = some (some "fortranfixed")) := by
  have h1 : ∀ e ∈ fortranExts, plain e ∧ (e, ExtVal.ambiguous "fortran") ∈ extensions := by decide +kernel
  have h := ext_decides o st before stem e "fortran" disk (some c) files (h1 e he).1 (h1 e he).2
  have hm : detect o st before (source before (stem ++ bs "." ++ e) disk (some c) files) = fortran (source before (stem ++ bs "." ++ e) disk (some c) files) := by
    rw [h]; rfl
  simp only [hm, fortran, source_text]
  by_cases hnl : ∃ b t, c = b :: t ∧ (b = 10 ∨ b = 13)
  · obtain ⟨b, t, rfl, hb⟩ := hnl
    have : fortranLoop ((b :: t).length + 1) (b :: t) = some true := by
      rw [fortranLoop_cons]; rcases hb with rfl | rfl <;> rfl
    rw [this]
    exact ⟨fun _ => rfl, fun hh => absurd (.inl ⟨b, t, rfl, hb⟩) hh⟩
  · rw [fortranLoop_iff _ c (Nat.lt_succ_self _) (by
      intro b hb
      cases hz : isNl b with
      | false => rfl
      | true =>
        cases c with
        | nil => cases hb
        | cons x t => cases hb; exact absurd ⟨b, t, rfl, (isNl_iff b).mp hz⟩ hnl)]
    by_cases hall : (textLines c).all fixedLine = true
    · rw [hall]
      refine ⟨?_, fun _ => rfl⟩
      rintro (hh | ⟨l, hl, hf⟩)
      · exact absurd hh hnl
      · rw [List.all_eq_true.mp hall l hl] at hf; cases hf
    · rw [show (textLines c).all fixedLine = false by simpa using hall]
      refine ⟨fun _ => rfl, fun hh => ?_⟩
      exfalso
      apply hh
      right
      have : ¬ ∀ l ∈ textLines c, fixedLine l = true := fun hx => hall (List.all_eq_true.mpr hx)
      simpa using this

/-- Labels, continuations, comments and quotes; columns 72 and 73; a line of two blanks already speaks for free form. -/
example :
    let run (t : String) := detect mute .strict 0 (source 0 (bs "a.f90") none (some (bs t)) none)
    run "C x\n  10  x = 1\n     & + 2\n\ty = '&'\n      a ! &\n" = some (some "fortranfixed") ∧
    run "      x = 1 &\n" = some (some "fortranfree") ∧ run "x = 1\n" = some (some "fortranfree") ∧
    run ("      " ++ String.ofList (List.replicate 65 'x') ++ "&\n") = some (some "fortranfree") ∧
    run ("      " ++ String.ofList (List.replicate 66 'x') ++ "&\n") = some (some "fortranfixed") ∧
    run "      x = 1\n  \n" = some (some "fortranfree") ∧ run "\n      x = 1\n" = some (some "fortranfree") := by
  decide +kernel

end Ohcount.Detector
