import Verif.DetectorLines
/-
C61: what decides the language of `.in`, `.st`, `.b` and `.m` files and of Fortran files.
-/

namespace Ohcount.Detector

open Ohcount Ohcount.Tables Ohcount.Diff

/-! ### `.in` -/

theorem disambiguate_rec (o : Oracles) (st : Stack) (before : Byte) (r1 r2 : Input → Option (Option String)) (id : String) (i : Input)
    (h : ∀ j : Input, j.filepath.length + 3 = i.filepath.length → r1 j = r2 j) :
    disambiguate o st before r1 id i = disambiguate o st before r2 id i := by
  unfold disambiguate
  split
  case h_11 =>
    dsimp only
    by_cases h3 : i.filepath.length < 3
    · rw [if_pos h3, if_pos h3]
    · rw [if_neg h3, if_neg h3]
      have : ∀ c, r1 (undecorated before i c (i.filepath.take (i.filepath.length - 3))) =
          r2 (undecorated before i c (i.filepath.take (i.filepath.length - 3))) := by
        intro c
        refine h _ ?_
        simp only [undecorated, List.length_take]; omega
      simp only [this]
  all_goals rfl

theorem detectN_enough (o : Oracles) (st : Stack) (before : Byte) : ∀ (k : Nat) (n m : Nat) (i : Input), i.filepath.length ≤ k →
    i.filepath.length < n → i.filepath.length < m → detectN o st before n i = detectN o st before m i := by
  intro k
  induction k with
  | zero =>
    intro n m i hk hn hm
    obtain ⟨n, rfl⟩ := Nat.exists_eq_succ_of_ne_zero (show n ≠ 0 by omega)
    obtain ⟨m, rfl⟩ := Nat.exists_eq_succ_of_ne_zero (show m ≠ 0 by omega)
    simp only [detectN]
    congr 1; funext r
    split <;> try rfl
    exact disambiguate_rec o st before _ _ _ _ (fun j hj => by omega)
  | succ k ih =>
    intro n m i hk hn hm
    obtain ⟨n, rfl⟩ := Nat.exists_eq_succ_of_ne_zero (show n ≠ 0 by omega)
    obtain ⟨m, rfl⟩ := Nat.exists_eq_succ_of_ne_zero (show m ≠ 0 by omega)
    simp only [detectN]
    congr 1; funext r
    split <;> try rfl
    exact disambiguate_rec o st before _ _ _ _ (fun j hj => ih n m j (by omega) (by omega) (by omega))

theorem first_dot_le (stem e : Bytes) : ((stem ++ 46 :: e).takeWhile fun c => c != 46).length ≤ stem.length := by
  induction stem with
  | nil => simp
  | cons b s ih =>
    rw [List.cons_append, List.takeWhile_cons]
    split
    · simp only [List.length_cons]; omega
    · simp

/-- C61, `.in`: the language of a file `stem.in` is the language of the file `stem` with the same contents (up to a NUL), the same place on
disk and the same file context, whether or not `stem` has an extension. -/
theorem C61_in (o : Oracles) (st : Stack) (before : Byte) (stem c : Bytes) (disk : Option Bytes) (files : Option (List Bytes))
    (hp : st.pad = true) :
    detect o st before (source before (stem ++ bs "." ++ bs "in") disk (some c) files) =
      detect o st before (source before stem disk (some (cstr c)) files) := by
  rw [ext_decides o st before stem (bs "in") "in" disk (some c) files (by decide +kernel) (by decide +kernel)]
  have hlen : (stem ++ bs "." ++ bs "in").length = stem.length + 3 := by
    simp [show (bs ".").length = 1 by decide, show (bs "in").length = 2 by decide]
  have hdot : ((stem ++ bs "." ++ bs "in").takeWhile fun c => c != 46).length ≤ stem.length := by
    rw [show stem ++ bs "." ++ bs "in" = stem ++ 46 :: bs "in" by simp [bs]]
    exact first_dot_le _ _
  have htake : (stem ++ bs "." ++ bs "in").take stem.length = stem := by
    rw [List.append_assoc, List.take_append_of_le_length (Nat.le_refl _), List.take_length]
  have step : ∀ (rc : Input → Option (Option String)) (i : Input) (x : Bytes), ¬ i.filepath.length < 3 →
      (i.filepath.takeWhile fun c => c != 46).length ≤ i.filepath.length - 3 → i.contents = some x →
      disambiguate o st before rc "in" i = rc (undecorated before i x (i.filepath.take (i.filepath.length - 3))) := by
    intro rc i x h1 h2 h3
    show (if i.filepath.length < 3 then none
      else if (i.filepath.takeWhile fun c => c != 46).length = i.filepath.length ∨
          (i.filepath.takeWhile fun c => c != 46).length ≤ i.filepath.length - 3 then
        if st.pad = true then
          match i.contents with
          | none => some none
          | some c => rc (undecorated before i c (i.filepath.take (i.filepath.length - 3)))
        else none
      else some none) = _
    rw [if_neg h1, if_pos (Or.inr h2), if_pos hp, h3]
  rw [step _ _ c (by show ¬ (stem ++ bs "." ++ bs "in").length < 3; omega)
    (by show ((stem ++ bs "." ++ bs "in").takeWhile fun c => c != 46).length ≤ (stem ++ bs "." ++ bs "in").length - 3; omega) rfl]
  show detectN o st before (stem ++ bs "." ++ bs "in").length
    { filepath := (stem ++ bs "." ++ bs "in").take ((stem ++ bs "." ++ bs "in").length - 3),
      parts := splitPath before ((stem ++ bs "." ++ bs "in").take ((stem ++ bs "." ++ bs "in").length - 3)), diskpath := disk,
      contents := some (cstr c), filenames := files } = _
  rw [hlen, show stem.length + 3 - 3 = stem.length by omega, htake]
  exact detectN_enough o st before stem.length _ _ (source before stem disk (some (cstr c)) files) (Nat.le_refl _)
    (by show stem.length < _; omega) (Nat.lt_succ_self _)

/-- The context of the decorated file is the one that decides. -/
example : detect mute ⟨true, some 0⟩ 0 (source 0 (bs "src/a.h.in") none (some (bs "int x;")) (some [bs "a.m"])) = some (some "objective_c") ∧
    detect mute ⟨true, some 0⟩ 0 (source 0 (bs "src/a.h.in") none (some (bs "int x;")) none) = some (some "c") := by
  decide +kernel

/-! ### `.st` -/

/-- After the text `a`, the last character `k` (with only blanks behind it) still waits for the character it belongs to. A `k` that
another one waits for does not wait itself. -/
def waits (k : Byte) (a : Bytes) : Bool := a.foldl (fun w b => if b = k then !w else if b = 32 ∨ b = 9 then w else false) false

/-- The line has ":" followed, perhaps after blanks, by the character `d`. -/
def ColonThen (d : Byte) (l : Bytes) : Prop :=
  ∃ a w b, l = a ++ 58 :: (w ++ d :: b) ∧ (∀ x ∈ w, x = 32 ∨ x = 9) ∧ waits 58 a = false

/-- The line has "]." where no colon waits for the bracket. -/
def BlockEnd (l : Bytes) : Prop := ∃ a b, l = a ++ 93 :: 46 :: b ∧ waits 58 a = false

theorem isBlank_iff (b : Byte) : isBlank b = true ↔ b = 32 ∨ b = 9 := by simp [isBlank]

theorem waits_snoc (k : Byte) (a : Bytes) (b : Byte) :
    waits k (a ++ [b]) = if b = k then !waits k a else if b = 32 ∨ b = 9 then waits k a else false := by
  unfold waits; rw [List.foldl_append]; rfl

theorem waits_blanks (k : Byte) (hk : ¬ (k = 32 ∨ k = 9)) (a : Bytes) : ∀ (w : Bytes), (∀ x ∈ w, x = 32 ∨ x = 9) → waits k (a ++ w) = waits k a
  | [], _ => by simp
  | x :: w, h => by
    have hx := h x (.head _)
    rw [show a ++ x :: w = a ++ [x] ++ w by simp, waits_blanks k hk _ w (fun y hy => h y (.tail _ hy)), waits_snoc,
      if_neg (fun e : x = k => hk (e ▸ hx)), if_pos hx]

/-- Evidence at or behind a given place. -/
def ColonFrom (d : Byte) (pre p : Bytes) : Prop :=
  ∃ a w b, p = a ++ 58 :: (w ++ d :: b) ∧ (∀ x ∈ w, x = 32 ∨ x = 9) ∧ waits 58 (pre ++ a) = false
def EndFrom (pre p : Bytes) : Prop := ∃ a b, p = a ++ 93 :: 46 :: b ∧ waits 58 (pre ++ a) = false

theorem colonFrom_cons (d : Byte) (pre : Bytes) (c : Byte) (p : Bytes) (h : waits 58 pre = false) :
    ColonFrom d pre (c :: p) ↔ (c = 58 ∧ ∃ w b, p = w ++ d :: b ∧ ∀ x ∈ w, x = 32 ∨ x = 9) ∨ ColonFrom d (pre ++ [c]) p := by
  constructor
  · rintro ⟨a, w, b, h1, h2, h3⟩
    cases a with
    | nil => cases h1; exact .inl ⟨rfl, w, b, rfl, h2⟩
    | cons x a => cases h1; exact .inr ⟨a, w, b, rfl, h2, by simpa using h3⟩
  · rintro (⟨rfl, w, b, rfl, h2⟩ | ⟨a, w, b, rfl, h2, h3⟩)
    · exact ⟨[], w, b, rfl, h2, by simpa using h⟩
    · exact ⟨c :: a, w, b, rfl, h2, by simpa using h3⟩

theorem endFrom_cons (pre : Bytes) (c : Byte) (p : Bytes) (h : waits 58 pre = false) :
    EndFrom pre (c :: p) ↔ (c = 93 ∧ p.head? = some 46) ∨ EndFrom (pre ++ [c]) p := by
  constructor
  · rintro ⟨a, b, h1, h3⟩
    cases a with
    | nil => cases h1; exact .inl ⟨rfl, rfl⟩
    | cons x a => cases h1; exact .inr ⟨a, b, rfl, by simpa using h3⟩
  · rintro (⟨rfl, h2⟩ | ⟨a, b, rfl, h3⟩)
    · cases p with
      | nil => cases h2
      | cons x p => cases h2; exact ⟨[], p, rfl, by simpa using h⟩
    · exact ⟨c :: a, b, rfl, by simpa using h3⟩

theorem colonFrom_awaited (d : Byte) (pre : Bytes) (c : Byte) (p : Bytes) (h : waits 58 pre = true) :
    ColonFrom d pre (c :: p) ↔ ColonFrom d (pre ++ [c]) p := by
  constructor
  · rintro ⟨a, v, b, h1, h2, h3⟩
    cases a with
    | nil => rw [List.append_nil, h] at h3; cases h3
    | cons y a => cases h1; exact ⟨a, v, b, rfl, h2, by simpa using h3⟩
  · rintro ⟨a, v, b, h1, h2, h3⟩
    exact ⟨c :: a, v, b, by rw [h1]; rfl, h2, by simpa using h3⟩

/-- While a colon waits, blanks and the awaited character are no evidence. -/
theorem colonFrom_waiting (d : Byte) : ∀ (w pre p : Bytes), (∀ x ∈ w, x = 32 ∨ x = 9) → waits 58 pre = true →
    (ColonFrom d pre (w ++ p) ↔ ColonFrom d (pre ++ w) p)
  | [], pre, p, _, _ => by simp
  | x :: w, pre, p, h, hw => by
    have hx := h x (.head _)
    have hx58 : x ≠ 58 := by rintro rfl; revert hx; decide
    rw [← show pre ++ [x] ++ w = pre ++ x :: w by simp,
      ← colonFrom_waiting d w (pre ++ [x]) p (fun y hy => h y (.tail _ hy)) (by rw [waits_snoc, if_neg hx58, if_pos hx, hw])]
    rw [List.cons_append]
    exact colonFrom_awaited d pre x _ hw

theorem endFrom_awaited (pre : Bytes) (c : Byte) (p : Bytes) (h : waits 58 pre = true) :
    EndFrom pre (c :: p) ↔ EndFrom (pre ++ [c]) p := by
  constructor
  · rintro ⟨a, b, h1, h3⟩
    cases a with
    | nil => rw [List.append_nil, h] at h3; cases h3
    | cons y a => cases h1; exact ⟨a, b, rfl, by simpa using h3⟩
  · rintro ⟨a, b, h1, h3⟩
    exact ⟨c :: a, b, by rw [h1]; rfl, by simpa using h3⟩

theorem endFrom_waiting : ∀ (w pre p : Bytes), (∀ x ∈ w, x = 32 ∨ x = 9) → waits 58 pre = true →
    (EndFrom pre (w ++ p) ↔ EndFrom (pre ++ w) p)
  | [], pre, p, _, _ => by simp
  | x :: w, pre, p, h, hw => by
    have hx := h x (.head _)
    have hx58 : x ≠ 58 := by rintro rfl; revert hx; decide
    rw [← show pre ++ [x] ++ w = pre ++ x :: w by simp, List.cons_append,
      ← endFrom_waiting w (pre ++ [x]) p (fun y hy => h y (.tail _ hy)) (by rw [waits_snoc, if_neg hx58, if_pos hx, hw]),
      endFrom_awaited pre x _ hw]

theorem blanks_split (p : Bytes) : p = p.takeWhile isBlank ++ p.dropWhile isBlank ∧ ∀ x ∈ p.takeWhile isBlank, x = 32 ∨ x = 9 :=
  ⟨(List.takeWhile_append_dropWhile ..).symm, fun x hx => (isBlank_iff x).mp (mem_takeWhile x hx)⟩

theorem awaited_iff (d : Byte) (hd0 : d ≠ 0) (hd1 : ¬ (d = 32 ∨ d = 9)) (p : Bytes) :
    (∃ w b, p = w ++ d :: b ∧ ∀ x ∈ w, x = 32 ∨ x = 9) ↔ (hd (p.dropWhile isBlank) == d) = true := by
  constructor
  · rintro ⟨w, b, rfl, h⟩
    rw [List.dropWhile_append_of_pos (fun x hx => (isBlank_iff x).mpr (h x hx)), List.dropWhile_cons,
      if_neg (fun e => hd1 ((isBlank_iff d).mp e))]
    simp [hd]
  · intro h
    obtain ⟨h1, h2⟩ := blanks_split p
    cases hq : p.dropWhile isBlank with
    | nil => rw [hq] at h; simp [hd] at h; exact absurd h.symm hd0
    | cons x q =>
      rw [hq] at h
      have : x = d := by simpa [hd] using h
      subst this
      exact ⟨_, q, by rw [← hq]; exact h1, h2⟩

theorem colonFrom_nil (d : Byte) (pre : Bytes) : ¬ ColonFrom d pre [] := by
  rintro ⟨a, w, b, h, _⟩; cases a <;> cases h

theorem endFrom_nil (pre : Bytes) : ¬ EndFrom pre [] := by
  rintro ⟨a, b, h, _⟩; cases a <;> cases h

/-- The scan of one line: the three flags become what they were or what the rest of the line has; all three at once decide. -/
theorem stLine_iff : ∀ (n : Nat) (pre p : Bytes) (a s e : Bool), p.length < n → waits 58 pre = false → (a && s && e) = false →
    ∃ a' s' e', (a' = true ↔ a = true ∨ ColonFrom 61 pre p) ∧ (s' = true ↔ s = true ∨ ColonFrom 91 pre p) ∧
      (e' = true ↔ e = true ∨ EndFrom pre p) ∧
      stLine n p (a, s, e) = some (if a' && s' && e' then .error () else .ok (a', s', e'))
  | 0, _, _, _, _, _, h, _, _ => by omega
  | n + 1, pre, [], a, s, e, h, hw, hf => by
    refine ⟨a, s, e, ?_, ?_, ?_, ?_⟩
    · simp [colonFrom_nil]
    · simp [colonFrom_nil]
    · simp [endFrom_nil]
    · rw [hf]; rfl
  | n + 1, pre, c :: p, a, s, e, h, hw, hf => by
    by_cases hc : c = 58
    · subst hc
      obtain ⟨hsp, hbl⟩ := blanks_split p
      have hw1 : waits 58 (pre ++ [58]) = true := by rw [waits_snoc, if_pos rfl, hw]; rfl
      have hw2 : waits 58 (pre ++ [58] ++ p.takeWhile isBlank) = true := by rw [waits_blanks 58 (by decide) _ _ hbl, hw1]
      -- evidence behind the awaited character
      have key : ∃ pre', waits 58 pre' = false ∧
          (∀ d, ColonFrom d (pre ++ [58]) p ↔ ColonFrom d pre' ((p.dropWhile isBlank).drop 1)) ∧
          (EndFrom (pre ++ [58]) p ↔ EndFrom pre' ((p.dropWhile isBlank).drop 1)) := by
        have c1 : ∀ d, ColonFrom d (pre ++ [58]) p ↔ ColonFrom d (pre ++ [58] ++ p.takeWhile isBlank) (p.dropWhile isBlank) := by
          intro d
          rw [← colonFrom_waiting d _ _ _ hbl hw1, ← hsp]
        have e1 : EndFrom (pre ++ [58]) p ↔ EndFrom (pre ++ [58] ++ p.takeWhile isBlank) (p.dropWhile isBlank) := by
          rw [← endFrom_waiting _ _ _ hbl hw1, ← hsp]
        cases hq : p.dropWhile isBlank with
        | nil =>
          rw [hq] at c1 e1
          refine ⟨pre, hw, fun d => ?_, ?_⟩
          · rw [c1]; simp [colonFrom_nil]
          · rw [e1]; simp [endFrom_nil]
        | cons x q =>
          rw [hq] at c1 e1
          have hxb : ¬ (x = 32 ∨ x = 9) := by
            intro hx
            have hh := List.head?_dropWhile_not isBlank p
            rw [hq] at hh
            simp only [List.head?_cons] at hh
            rw [(isBlank_iff x).mpr hx] at hh
            exact absurd hh (by simp)
          refine ⟨pre ++ [58] ++ p.takeWhile isBlank ++ [x], ?_, fun d => ?_, ?_⟩
          · rw [waits_snoc, hw2]
            by_cases hx : x = 58
            · rw [if_pos hx]; rfl
            · rw [if_neg hx, if_neg hxb]
          · rw [c1, colonFrom_awaited d _ x q hw2]; rfl
          · rw [e1, endFrom_awaited _ x q hw2]; rfl
      obtain ⟨pre', hp', kc, ke⟩ := key
      have la : ColonFrom 61 pre (58 :: p) ↔ (hd (p.dropWhile isBlank) == 61) = true ∨ ColonFrom 61 pre' ((p.dropWhile isBlank).drop 1) := by
        rw [colonFrom_cons 61 pre 58 p hw, kc, awaited_iff 61 (by decide) (by decide)]; simp
      have ls : ColonFrom 91 pre (58 :: p) ↔ (hd (p.dropWhile isBlank) == 91) = true ∨ ColonFrom 91 pre' ((p.dropWhile isBlank).drop 1) := by
        rw [colonFrom_cons 91 pre 58 p hw, kc, awaited_iff 91 (by decide) (by decide)]; simp
      have le : EndFrom pre (58 :: p) ↔ EndFrom pre' ((p.dropWhile isBlank).drop 1) := by
        rw [endFrom_cons pre 58 p hw, ke]
        constructor
        · rintro (⟨x, _⟩ | x)
          · exact absurd x (by decide)
          · exact x
        · exact .inr
      rw [la, ls, le]
      simp only [stLine, beq_self_eq_true, if_true]
      generalize (hd (p.dropWhile isBlank) == 61) = x1
      generalize (hd (p.dropWhile isBlank) == 91) = x2
      by_cases hall : ((a || x1) && (s || x2) && e) = true
      · rw [if_pos hall]
        simp only [Bool.and_eq_true, Bool.or_eq_true] at hall
        refine ⟨true, true, true, ?_, ?_, ?_, rfl⟩
        · simp only [true_iff]; rcases hall.1.1 with y | y
          · exact .inl y
          · exact .inr (.inl y)
        · simp only [true_iff]; rcases hall.1.2 with y | y
          · exact .inl y
          · exact .inr (.inl y)
        · simp only [true_iff]; exact .inl hall.2
      · rw [if_neg hall]
        have hlen : ((p.dropWhile isBlank).drop 1).length < n := by
          have h1 : (p.dropWhile isBlank).length ≤ p.length := (List.dropWhile_sublist _).length_le
          simp only [List.length_drop, List.length_cons] at h ⊢
          omega
        obtain ⟨a', s', e', i1, i2, i3, i4⟩ := stLine_iff n pre' ((p.dropWhile isBlank).drop 1) (a || x1) (s || x2) e hlen hp'
          (by simpa using hall)
        refine ⟨a', s', e', ?_, ?_, i3, i4⟩
        · rw [i1, Bool.or_eq_true, or_assoc]
        · rw [i2, Bool.or_eq_true, or_assoc]
    · have hw' : waits 58 (pre ++ [c]) = false := by
        rw [waits_snoc, if_neg hc, hw]; simp
      have la : ∀ d, ColonFrom d pre (c :: p) ↔ ColonFrom d (pre ++ [c]) p := by
        intro d; rw [colonFrom_cons d pre c p hw]
        constructor
        · rintro (⟨x, _⟩ | x)
          · exact absurd x hc
          · exact x
        · exact .inr
      have le : EndFrom pre (c :: p) ↔ (c == 93 && hd p == 46) = true ∨ EndFrom (pre ++ [c]) p := by
        rw [endFrom_cons pre c p hw]
        have : (c = 93 ∧ p.head? = some 46) ↔ (c == 93 && hd p == 46) = true := by
          cases p with
          | nil => simp [hd]
          | cons x p => simp [hd]
        rw [this]
      rw [la, la, le]
      simp only [stLine, beq_iff_eq, hc, if_false]
      generalize (c == 93 && hd p == 46) = x
      by_cases hall : (a && s && (e || x)) = true
      · rw [if_pos hall]
        simp only [Bool.and_eq_true, Bool.or_eq_true] at hall
        refine ⟨true, true, true, ?_, ?_, ?_, rfl⟩
        · simp [hall.1.1]
        · simp [hall.1.2]
        · simp only [true_iff]; rcases hall.2 with y | y
          · exact .inl y
          · exact .inr (.inl y)
      · rw [if_neg hall]
        obtain ⟨a', s', e', i1, i2, i3, i4⟩ := stLine_iff n (pre ++ [c]) p a s (e || x) (by simp only [List.length_cons] at h; omega) hw'
          (by simpa using hall)
        refine ⟨a', s', e', i1, i2, ?_, i4⟩
        rw [i3, Bool.or_eq_true, or_assoc]

/-- What is done with one line. -/
def stStep (s : Bool × Bool × Bool) (l : Bytes) : Option (Except (Option String) (Bool × Bool × Bool)) :=
  (stLine (l.length + 1) l s).map fun r =>
    match r with
    | .error _ => .error (some "smalltalk")
    | .ok s' => .ok s'

theorem smalltalk_eq (st : Stack) (i : Input) : smalltalk st i =
    (lineLoop st stStep (i.text.length + 1) i.text (false, false, false)).map fun r =>
      match r with
      | .error e => e
      | .ok _ => none := rfl

theorem st_overLines : ∀ (ls : List Bytes) (a s e : Bool), (a && s && e) = false →
    let A := a = true ∨ ∃ l ∈ ls, ColonThen 61 (seen l)
    let S := s = true ∨ ∃ l ∈ ls, ColonThen 91 (seen l)
    let E := e = true ∨ ∃ l ∈ ls, BlockEnd (seen l)
    ((A ∧ S ∧ E) → overLines stStep ls (a, s, e) = some (.error (some "smalltalk"))) ∧
    (¬ (A ∧ S ∧ E) → ∃ x, overLines stStep ls (a, s, e) = some (.ok x))
  | [], a, s, e, h => by
    simp only [List.not_mem_nil, false_and, exists_false, or_false, overLines]
    refine ⟨?_, fun _ => ⟨_, rfl⟩⟩
    rintro ⟨rfl, rfl, rfl⟩; cases h
  | l :: ls, a, s, e, h => by
    obtain ⟨a', s', e', i1, i2, i3, i4⟩ := stLine_iff ((seen l).length + 1) [] (seen l) a s e (Nat.lt_succ_self _) rfl h
    have g1 : ColonFrom 61 [] (seen l) ↔ ColonThen 61 (seen l) := by simp [ColonFrom, ColonThen]
    have g2 : ColonFrom 91 [] (seen l) ↔ ColonThen 91 (seen l) := by simp [ColonFrom, ColonThen]
    have g3 : EndFrom [] (seen l) ↔ BlockEnd (seen l) := by simp [EndFrom, BlockEnd]
    rw [g1] at i1; rw [g2] at i2; rw [g3] at i3
    simp only [List.mem_cons, exists_eq_or_imp, ← or_assoc, ← i1, ← i2, ← i3, overLines, stStep, i4, Option.map_some, Option.bind_some]
    by_cases hall : (a' && s' && e') = true
    · rw [if_pos hall]
      simp only [Bool.and_eq_true] at hall
      exact ⟨fun _ => rfl, fun hn => absurd ⟨.inl hall.1.1, .inl hall.1.2, .inl hall.2⟩ hn⟩
    · rw [if_neg hall]
      exact st_overLines ls a' s' e' (by simpa using hall)

/-- C61, `.st`: Smalltalk iff the lines of the text (as far as they are looked at) have ":=", ":[" (blanks may stand behind the
colon) and "]."; otherwise no language. -/
theorem C61_st (o : Oracles) (st : Stack) (before : Byte) (stem c : Bytes) (disk : Option Bytes) (files : Option (List Bytes))
    (hf : Fits st c) :
    let r := detect o st before (source before (stem ++ bs "." ++ bs "st") disk (some c) files)
    let evidence := (∃ l ∈ textLines c, ColonThen 61 (seen l)) ∧ (∃ l ∈ textLines c, ColonThen 91 (seen l)) ∧
      (∃ l ∈ textLines c, BlockEnd (seen l))
    (evidence → r = some (some "smalltalk")) ∧ (¬ evidence → r = some none) := by
  have h := ext_decides o st before stem (bs "st") "st" disk (some c) files (by decide +kernel) (by decide +kernel)
  have hl := lineLoop_eq st stStep (fun _ => rfl) (c.length + 1) c (false, false, false) (Nat.lt_succ_self _) hf
  have hs := st_overLines (textLines c) false false false rfl
  simp only [Bool.false_eq_true, false_or] at hs
  simp only [h, disambiguate, smalltalk_eq, source_text, hl]
  refine ⟨fun hh => by rw [hs.1 hh]; rfl, fun hh => ?_⟩
  obtain ⟨x, hx⟩ := hs.2 hh
  rw [hx]; rfl

/-- Evidence in different lines; and "::=" is no assignment. -/
example : ColonThen 61 (seen (bs "x := 1.")) ∧ ColonThen 91 (seen (bs "a do: [ :x | x ].")) ∧ BlockEnd (seen (bs "a do: [ :x | x ].")) ∧
    detect mute .strict 0 (source 0 (bs "a.st") none (some (bs "x := 1.\na do: [ :y | y ].\n")) none) = some (some "smalltalk") ∧
    detect mute .strict 0 (source 0 (bs "a.st") none (some (bs "x ::= 1.\na do: [ :y | y ].\n")) none) = some none := by
  refine ⟨⟨bs "x ", [], bs " 1.", by decide +kernel, by decide, by decide⟩, ⟨bs "a do", bs " ", bs " :x | x ].", by decide +kernel, by decide, by decide⟩,
    ⟨bs "a do: [ :x | x ", [], by decide +kernel, by decide⟩, by decide +kernel, by decide +kernel⟩

/-! ### `.b` -/

/-- What is taken for Limbo at the start of `x`. (The include clause was meant for `include "name.m";`, but it sees only a quote that is
directly followed by a semicolon.) -/
def LimboMark (x : Bytes) : Prop :=
  (∃ b t, x = bs "implement" ++ b :: t ∧ (b = 32 ∨ b = 9)) ∨
  (∃ w t, x = bs "include" ++ w ++ 34 :: 59 :: t ∧ w ≠ [] ∧ ∀ b ∈ w, b = 32 ∨ b = 9) ∨
  (∃ k ∈ [bs "return", bs "break", bs "continue"], k <+: x ∧ Occurs (bs ";") (cstr x)) ∨
  (∃ k ∈ [bs "pick", bs "case"], k <+: x ∧ Occurs (bs "{") (cstr x))

/-- The text `a` ends in "include" and blanks. -/
def BehindInclude (a : Bytes) : Prop := ∃ a' w, a = a' ++ bs "include" ++ w ∧ w ≠ [] ∧ ∀ b ∈ w, b = 32 ∨ b = 9

theorem starts_split {p : Bytes} {s : String} (h : starts p s = true) : p = bs s ++ p.drop (bs s).length := by
  obtain ⟨t, rfl⟩ := (starts_iff p s).mp h
  simp

theorem rd_at {p : Bytes} {s : String} {k : Nat} (hk : (bs s).length = k) (h : starts p s = true) : rd p k = some (hd (p.drop k)) := by
  have := rd_append (bs s) (p.drop (bs s).length)
  rw [← starts_split h, hk] at this
  exact this

theorem not_both {x k1 k2 : Bytes} {c1 c2 : Byte} {t1 t2 : Bytes} (e1 : k1 = c1 :: t1) (e2 : k2 = c2 :: t2) (h : c1 ≠ c2)
    (h1 : k1 <+: x) : ¬ k2 <+: x := by
  subst e1; subst e2
  rintro ⟨v, hv⟩
  obtain ⟨u, hu⟩ := h1
  rw [← hu] at hv
  exact h (List.cons.inj hv).1.symm

theorem hd_blank (q : Bytes) : (hd q == 32 || hd q == 9) = true ↔ ∃ b t, q = b :: t ∧ (b = 32 ∨ b = 9) := by
  cases q with
  | nil => simp [hd]
  | cons b t =>
    simp only [hd, List.headD_cons, Bool.or_eq_true, beq_iff_eq]
    exact ⟨fun h => ⟨b, t, rfl, h⟩, fun ⟨_, _, h, h'⟩ => by cases h; exact h'⟩

/-- An "include" with blanks behind it. -/
def inclAt (p : Bytes) : Bool := starts p "include" && (hd (p.drop 7) == 32 || hd (p.drop 7) == 9)

/-- Where the scan is after one round that does not decide. -/
def bNext (p : Bytes) : Bytes := if inclAt p then (p.drop 7).dropWhile isBlank else p

theorem bStep_iff (p : Bytes) :
    (LimboMark p → bStep p = some (.error ())) ∧ (¬ LimboMark p → bStep p = some (.ok (bNext p))) := by
  have hstr : ∀ s : String, bs s ≠ [] → (0 : Byte) ∉ bs s → ((strstr s p).isSome = true ↔ Occurs (bs s) (cstr p)) :=
    fun s h1 h2 => strstr_isSome h1 h2 p
  have hsemi := hstr ";" (by decide) (by decide)
  have hbrace := hstr "{" (by decide) (by decide)
  -- the four clauses as Booleans
  have m1 : (∃ b t, p = bs "implement" ++ b :: t ∧ (b = 32 ∨ b = 9)) ↔
      (starts p "implement" && (hd (p.drop 9) == 32 || hd (p.drop 9) == 9)) = true := by
    constructor
    · rintro ⟨b, t, rfl, hb⟩
      rw [Bool.and_eq_true]
      refine ⟨(starts_iff _ _).mpr ⟨_, rfl⟩, (hd_blank _).mpr ⟨b, t, ?_, hb⟩⟩
      rw [show (9 : Nat) = (bs "implement").length by decide, List.drop_left]
    · rw [Bool.and_eq_true]
      rintro ⟨h1, h2⟩
      obtain ⟨b, t, h3, h4⟩ := (hd_blank _).mp h2
      exact ⟨b, t, by rw [← h3]; exact starts_split h1, h4⟩
  have m2 : (∃ w t, p = bs "include" ++ w ++ 34 :: 59 :: t ∧ w ≠ [] ∧ ∀ b ∈ w, b = 32 ∨ b = 9) ↔
      (inclAt p && (hd ((p.drop 7).dropWhile isBlank) == 34 && hd (((p.drop 7).dropWhile isBlank).drop 1) == 59)) = true := by
    constructor
    · rintro ⟨w, t, rfl, hw, hb⟩
      have hdrop : (bs "include" ++ w ++ 34 :: 59 :: t).drop 7 = w ++ 34 :: 59 :: t := by
        rw [List.append_assoc, show (7 : Nat) = (bs "include").length by decide, List.drop_left]
      have hdw : (w ++ 34 :: 59 :: t).dropWhile isBlank = 34 :: 59 :: t := by
        rw [List.dropWhile_append_of_pos (fun x hx => (isBlank_iff x).mpr (hb x hx))]; rfl
      unfold inclAt
      rw [hdrop, hdw]
      simp only [Bool.and_eq_true]
      refine ⟨⟨(starts_iff _ _).mpr ⟨w ++ 34 :: 59 :: t, by simp⟩, ?_⟩, rfl, rfl⟩
      cases w with
      | nil => exact absurd rfl hw
      | cons b w => exact (hd_blank _).mpr ⟨b, w ++ 34 :: 59 :: t, rfl, hb b (.head _)⟩
    · unfold inclAt
      simp only [Bool.and_eq_true]
      rintro ⟨⟨h1, h2⟩, h3, h4⟩
      obtain ⟨e1, e2⟩ := blanks_split (p.drop 7)
      refine ⟨(p.drop 7).takeWhile isBlank, ((p.drop 7).dropWhile isBlank).drop 2, ?_, ?_, e2⟩
      · have : (p.drop 7).dropWhile isBlank = 34 :: 59 :: ((p.drop 7).dropWhile isBlank).drop 2 := by
          generalize (p.drop 7).dropWhile isBlank = q at h3 h4
          match q, h3, h4 with
          | [], h3, _ => exact absurd h3 (by decide)
          | [a], _, h4 => exact absurd h4 (by simp [hd])
          | a :: b :: q, h3, h4 =>
            have e3 : a = 34 := by simpa [hd] using h3
            have e4 : b = 59 := by simpa [hd] using h4
            rw [e3, e4]; rfl
        rw [← this, List.append_assoc, ← e1]
        exact starts_split h1
      · obtain ⟨b, t, h5, h6⟩ := (hd_blank _).mp h2
        rw [h5, List.takeWhile_cons, if_pos ((isBlank_iff b).mpr h6)]
        simp
  have m3 : (∃ k ∈ [bs "return", bs "break", bs "continue"], k <+: p ∧ Occurs (bs ";") (cstr p)) ↔
      ((starts p "return" || starts p "break" || starts p "continue") && (strstr ";" p).isSome) = true := by
    simp only [List.mem_cons, List.not_mem_nil, or_false, exists_eq_or_imp, exists_eq_left, Bool.and_eq_true, Bool.or_eq_true,
      starts_iff, hsemi]
    constructor
    · rintro (⟨a, b⟩ | ⟨a, b⟩ | ⟨a, b⟩)
      · exact ⟨.inl (.inl a), b⟩
      · exact ⟨.inl (.inr a), b⟩
      · exact ⟨.inr a, b⟩
    · rintro ⟨(a | a) | a, b⟩
      · exact .inl ⟨a, b⟩
      · exact .inr (.inl ⟨a, b⟩)
      · exact .inr (.inr ⟨a, b⟩)
  have m4 : (∃ k ∈ [bs "pick", bs "case"], k <+: p ∧ Occurs (bs "{") (cstr p)) ↔
      ((starts p "pick" || starts p "case") && (strstr "{" p).isSome) = true := by
    simp only [List.mem_cons, List.not_mem_nil, or_false, exists_eq_or_imp, exists_eq_left, Bool.and_eq_true, Bool.or_eq_true,
      starts_iff, hbrace]
    constructor
    · rintro (⟨a, b⟩ | ⟨a, b⟩)
      · exact ⟨.inl a, b⟩
      · exact ⟨.inr a, b⟩
    · rintro ⟨a | a, b⟩
      · exact .inl ⟨a, b⟩
      · exact .inr ⟨a, b⟩
  have d1 : starts p "include" = true → (starts p "return" || starts p "break" || starts p "continue") = false ∧
      (starts p "pick" || starts p "case") = false := by
    intro h
    have n : ∀ (s : String) (c : Byte) (t : Bytes), bs s = c :: t → (105 : Byte) ≠ c → starts p s = false := by
      intro s c t e hc
      cases hs : starts p s with
      | false => rfl
      | true => exact absurd ((starts_iff p s).mp hs) (not_both (show bs "include" = 105 :: bs "nclude" by decide) e hc ((starts_iff _ _).mp h))
    rw [n "return" 114 (bs "eturn") (by decide) (by decide), n "break" 98 (bs "reak") (by decide) (by decide),
      n "continue" 99 (bs "ontinue") (by decide) (by decide), n "pick" 112 (bs "ick") (by decide) (by decide),
      n "case" 99 (bs "ase") (by decide) (by decide)]
    exact ⟨rfl, rfl⟩
  have d2 : (starts p "return" || starts p "break" || starts p "continue") = true → (starts p "pick" || starts p "case") = false := by
    intro h
    have n : ∀ (k s : String) (t1 t2 : Bytes) (c1 c2 : Byte), bs k = c1 :: t1 → bs s = c2 :: t2 → c1 ≠ c2 → starts p k = true → starts p s = false := by
      intro k s t1 t2 c1 c2 e1 e2 hc hk
      cases hs : starts p s with
      | false => rfl
      | true => exact absurd ((starts_iff p s).mp hs) (not_both e1 e2 hc ((starts_iff _ _).mp hk))
    have hcc : starts p "continue" = true → starts p "case" = false := by
      intro hk
      cases hs : starts p "case" with
      | false => rfl
      | true =>
        obtain ⟨u, hu⟩ := (starts_iff _ _).mp hk
        obtain ⟨v, hv⟩ := (starts_iff _ _).mp hs
        rw [← hu] at hv
        rw [show bs "case" = 99 :: 97 :: bs "se" by decide, show bs "continue" = 99 :: 111 :: bs "ntinue" by decide] at hv
        simp only [List.cons_append, List.cons.injEq] at hv
        exact absurd hv.2.1 (by decide)
    simp only [Bool.or_eq_true] at h
    rcases h with (h | h) | h
    · rw [n "return" "pick" (bs "eturn") (bs "ick") 114 112 (by decide) (by decide) (by decide) h,
        n "return" "case" (bs "eturn") (bs "ase") 114 99 (by decide) (by decide) (by decide) h]; rfl
    · rw [n "break" "pick" (bs "reak") (bs "ick") 98 112 (by decide) (by decide) (by decide) h,
        n "break" "case" (bs "reak") (bs "ase") 98 99 (by decide) (by decide) (by decide) h]; rfl
    · rw [n "continue" "pick" (bs "ontinue") (bs "ick") 99 112 (by decide) (by decide) (by decide) h, hcc h]; rfl
  have i1 : (if starts p "implement" then (rd p 9).map (fun c => c == 32 || c == 9) else some false) =
      some (starts p "implement" && (hd (p.drop 9) == 32 || hd (p.drop 9) == 9)) := by
    cases h : starts p "implement" with
    | false => rfl
    | true => rw [if_pos rfl, rd_at (by decide) h]; rfl
  have i2 : (if starts p "include" then (rd p 7).map (fun c => c == 32 || c == 9) else some false) = some (inclAt p) := by
    unfold inclAt
    cases h : starts p "include" with
    | false => rfl
    | true => rw [if_pos rfl, rd_at (by decide) h]; rfl
  have hstep : bStep p = some (
      if starts p "implement" && (hd (p.drop 9) == 32 || hd (p.drop 9) == 9) then .error ()
      else if inclAt p then
        (if hd ((p.drop 7).dropWhile isBlank) == 34 && hd (((p.drop 7).dropWhile isBlank).drop 1) == 59 then .error ()
          else .ok ((p.drop 7).dropWhile isBlank))
      else if starts p "return" || starts p "break" || starts p "continue" then (if (strstr ";" p).isSome then .error () else .ok p)
      else if starts p "pick" || starts p "case" then (if (strstr "{" p).isSome then .error () else .ok p)
      else .ok p) := by
    unfold bStep
    dsimp only
    rw [i1, Option.bind_some]
    split
    · rfl
    · rw [i2, Option.bind_some]
      split
      · generalize (p.drop 7).dropWhile isBlank = q
        cases q with
        | nil => rfl
        | cons c q =>
          by_cases hc : (hd (c :: q) == 34) = true
          · rw [if_pos hc]
            have : rd (c :: q) 1 = some (hd q) := rd_append [c] q
            rw [this, Option.bind_some, hc, Bool.true_and]
            rfl
          · rw [if_neg hc]
            simp only [Bool.not_eq_true] at hc
            rw [hc]; rfl
      · split
        · rfl
        · split <;> rfl
  unfold LimboMark bNext
  rw [m1, m2, m3, m4, hstep]
  have d1' : inclAt p = true → (starts p "return" || starts p "break" || starts p "continue") = false ∧
      (starts p "pick" || starts p "case") = false := by
    intro h; unfold inclAt at h; rw [Bool.and_eq_true] at h; exact d1 h.1
  generalize (starts p "implement" && (hd (p.drop 9) == 32 || hd (p.drop 9) == 9)) = x1
  generalize (hd ((p.drop 7).dropWhile isBlank) == 34 && hd (((p.drop 7).dropWhile isBlank).drop 1) == 59) = x3
  generalize inclAt p = x2 at d1' ⊢
  generalize (starts p "return" || starts p "break" || starts p "continue") = x4 at d1' d2 ⊢
  generalize (starts p "pick" || starts p "case") = x5 at d1' d2 ⊢
  generalize (strstr ";" p).isSome = x6
  generalize (strstr "{" p).isSome = x7
  cases x1 <;> cases x2 <;> cases x4 <;> cases x5 <;> simp at d1' d2 ⊢ <;> cases x3 <;> cases x6 <;> cases x7 <;> simp

theorem limboMark_head {x : Bytes} (h : LimboMark x) : x.head? ∈ ([some 105, some 114, some 98, some 99, some 112] : List (Option Byte)) := by
  have pf : ∀ {k : Bytes} {c : Byte} {t : Bytes}, k = c :: t → k <+: x → x.head? = some c := by
    rintro k c t rfl ⟨u, rfl⟩; rfl
  rcases h with ⟨b, t, rfl, _⟩ | ⟨w, t, rfl, _⟩ | ⟨k, hk, h1, _⟩ | ⟨k, hk, h1, _⟩
  · rw [show bs "implement" = 105 :: bs "mplement" by decide]; simp
  · rw [show bs "include" = 105 :: bs "nclude" by decide]; simp
  · simp only [List.mem_cons, List.not_mem_nil, or_false] at hk
    rcases hk with rfl | rfl | rfl
    · rw [pf (show bs "return" = 114 :: bs "eturn" by decide) h1]; decide
    · rw [pf (show bs "break" = 98 :: bs "reak" by decide) h1]; decide
    · rw [pf (show bs "continue" = 99 :: bs "ontinue" by decide) h1]; decide
  · simp only [List.mem_cons, List.not_mem_nil, or_false] at hk
    rcases hk with rfl | rfl
    · rw [pf (show bs "pick" = 112 :: bs "ick" by decide) h1]; decide
    · rw [pf (show bs "case" = 99 :: bs "ase" by decide) h1]; decide

theorem limboMark_not_clude {t : Bytes} : ¬ LimboMark (bs "clude" ++ t) := by
  have pf : ∀ {k : Bytes} {a b : Byte} {r : Bytes}, k = a :: b :: r → b ≠ 108 → ¬ k <+: bs "clude" ++ t := by
    rintro k a b r rfl hb ⟨u, hu⟩
    rw [show bs "clude" = 99 :: 108 :: bs "ude" by decide] at hu
    simp only [List.cons_append, List.cons.injEq] at hu
    exact hb hu.2.1
  rintro (⟨b, r, h, _⟩ | ⟨w, r, h, _⟩ | ⟨k, hk, h1, _⟩ | ⟨k, hk, h1, _⟩)
  · exact pf (show bs "implement" = 105 :: 109 :: bs "plement" by decide) (by decide) ⟨_, h.symm⟩
  · exact pf (show bs "include" = 105 :: 110 :: bs "clude" by decide) (by decide) ⟨w ++ 34 :: 59 :: r, by rw [h]; simp⟩
  · simp only [List.mem_cons, List.not_mem_nil, or_false] at hk
    rcases hk with rfl | rfl | rfl
    · exact pf (show bs "return" = 114 :: 101 :: bs "turn" by decide) (by decide) h1
    · exact pf (show bs "break" = 98 :: 114 :: bs "eak" by decide) (by decide) h1
    · exact pf (show bs "continue" = 99 :: 111 :: bs "ntinue" by decide) (by decide) h1
  · simp only [List.mem_cons, List.not_mem_nil, or_false] at hk
    rcases hk with rfl | rfl
    · exact pf (show bs "pick" = 112 :: 105 :: bs "ck" by decide) (by decide) h1
    · exact pf (show bs "case" = 99 :: 97 :: bs "se" by decide) (by decide) h1

theorem behind_append {a b : Bytes} (h : BehindInclude b) : BehindInclude (a ++ b) := by
  obtain ⟨a', w, rfl, h2, h3⟩ := h
  exact ⟨a ++ a', w, by simp, h2, h3⟩

/-- A mark behind the place where the scan is, but not behind where it will be next, is one that directly follows an "include". -/
theorem mark_skipped (p a x : Bytes) (h : p = a ++ x) (hx : LimboMark x) (ha : a ≠ []) (hb : ¬ BehindInclude a) :
    ∃ pre a2, p = pre ++ (bNext p).drop 1 ∧ a = pre ++ a2 := by
  unfold bNext
  cases hi : inclAt p with
  | false =>
    cases p with
    | nil => cases a <;> cases h; exact absurd rfl ha
    | cons c p =>
      cases a with
      | nil => exact absurd rfl ha
      | cons y a => cases h; exact ⟨[c], a, by simp, rfl⟩
  | true =>
    rw [if_pos rfl]
    unfold inclAt at hi
    rw [Bool.and_eq_true] at hi
    have h1 := starts_split hi.1
    rw [show (bs "include").length = 7 by decide] at h1
    obtain ⟨e1, e2⟩ := blanks_split (p.drop 7)
    have hne : (p.drop 7).takeWhile isBlank ≠ [] := by
      obtain ⟨b, t, h5, h6⟩ := (hd_blank _).mp hi.2
      rw [h5, List.takeWhile_cons, if_pos ((isBlank_iff b).mpr h6)]; simp
    generalize hw : (p.drop 7).takeWhile isBlank = w at e1 e2 hne
    generalize hq : (p.drop 7).dropWhile isBlank = q at e1
    have hp : p = bs "include" ++ w ++ q := by rw [List.append_assoc, ← e1]; exact h1
    -- `a` reaches at least behind the character after the blanks
    have hlong : (bs "include" ++ w).length < a.length := by
      refine Nat.lt_of_not_le fun hle => ?_
      have hpre : a <+: bs "include" ++ w := List.prefix_of_prefix_length_le ⟨x, h.symm⟩ ⟨q, hp.symm⟩ hle
      obtain ⟨r, hr⟩ := hpre
      have hxr : x = r ++ q := by
        rw [h, ← hr, List.append_assoc] at hp
        exact List.append_cancel_left hp
      have hhead := limboMark_head hx
      rw [hxr] at hhead hx
      rcases Nat.lt_or_ge a.length 7 with hl | hl
      · -- inside the word
        have hal : a.length = 1 ∨ a.length = 2 ∨ a.length = 3 ∨ a.length = 4 ∨ a.length = 5 ∨ a.length = 6 := by
          have : a.length ≠ 0 := fun e => ha (List.eq_nil_of_length_eq_zero e)
          omega
        have hrr : r = (bs "include").drop a.length ++ w := by
          have := congrArg (List.drop a.length) hr
          rw [List.drop_left, List.drop_append_of_le_length (by rw [show (bs "include").length = 7 by decide]; omega)] at this
          exact this
        rcases hal with e | e | e | e | e | e <;> rw [e] at hrr
        · rw [hrr, show (bs "include").drop 1 = 110 :: bs "clude" by decide] at hhead; revert hhead; simp
        · rw [hrr, show (bs "include").drop 2 = bs "clude" by decide, List.append_assoc] at hx
          exact limboMark_not_clude hx
        · rw [hrr, show (bs "include").drop 3 = 108 :: bs "ude" by decide] at hhead; revert hhead; simp
        · rw [hrr, show (bs "include").drop 4 = 117 :: bs "de" by decide] at hhead; revert hhead; simp
        · rw [hrr, show (bs "include").drop 5 = 100 :: bs "e" by decide] at hhead; revert hhead; simp
        · rw [hrr, show (bs "include").drop 6 = 101 :: [] by decide] at hhead; revert hhead; simp
      · -- in the blanks or directly behind them
        obtain ⟨u, hu⟩ : bs "include" <+: a := List.prefix_of_prefix_length_le ⟨w, rfl⟩ ⟨r, hr⟩ (by
          rw [show (bs "include").length = 7 by decide]; exact hl)
        have hwu : w = u ++ r := by
          rw [← hu, List.append_assoc] at hr
          exact (List.append_cancel_left hr).symm
        cases r with
        | cons y r =>
          have hy : y = 32 ∨ y = 9 := e2 y (by rw [hwu]; simp)
          rcases hy with rfl | rfl
          · revert hhead; simp
          · revert hhead; simp
        | nil =>
          rw [List.append_nil] at hwu
          exact hb ⟨[], w, by rw [← hu, hwu]; rfl, hne, e2⟩
    cases q with
    | nil =>
      rw [List.append_nil] at hp
      have := congrArg List.length h
      rw [hp, List.length_append (as := a)] at this
      omega
    | cons d q =>
      refine ⟨bs "include" ++ w ++ [d], a.drop (bs "include" ++ w ++ [d]).length, ?_, ?_⟩
      · rw [hp]; simp
      · obtain ⟨u, hu⟩ : bs "include" ++ w ++ [d] <+: a := List.prefix_of_prefix_length_le (l₃ := p) ⟨q, by rw [hp]; simp⟩ ⟨x, h.symm⟩ (by
          rw [List.length_append (bs := [d])]; simp only [List.length_singleton]; omega)
        rw [← hu, List.drop_left]

theorem bNext_suffix (p : Bytes) : bNext p <:+ p := by
  unfold bNext
  split
  · exact (List.dropWhile_suffix _).trans (List.drop_suffix _ _)
  · exact List.suffix_refl _

theorem bLoop_iff : ∀ (n : Nat) (p : Bytes), p.length < n → ∃ r, bLoop n p = some r ∧
    (r = true → ∃ a x, p = a ++ x ∧ LimboMark x) ∧
    ((∃ a x, p = a ++ x ∧ LimboMark x ∧ ¬ BehindInclude a) → r = true)
  | 0, _, h => by omega
  | n + 1, p, h => by
    unfold bLoop
    by_cases hp : p = []
    · rw [if_pos hp]
      refine ⟨false, rfl, by simp, ?_⟩
      rintro ⟨a, x, h1, h2, _⟩
      subst hp
      have : x = [] := (List.append_eq_nil_iff.mp h1.symm).2
      subst this
      exact absurd (limboMark_head h2) (by decide)
    · rw [if_neg hp]
      obtain ⟨s1, s2⟩ := bStep_iff p
      by_cases hm : LimboMark p
      · rw [s1 hm]
        exact ⟨true, rfl, fun _ => ⟨[], p, rfl, hm⟩, fun _ => rfl⟩
      · rw [s2 hm]
        simp only [Option.bind_some]
        obtain ⟨pre, hpre⟩ := bNext_suffix p
        by_cases hq : bNext p = []
        · rw [if_pos hq]
          refine ⟨false, rfl, by simp, ?_⟩
          rintro ⟨a, x, h1, h2, h3⟩
          have ha : a ≠ [] := by rintro rfl; rw [List.nil_append] at h1; exact hm (h1 ▸ h2)
          obtain ⟨pr, a2, h4, h5⟩ := mark_skipped p a x h1 h2 ha h3
          rw [hq, List.drop_nil, List.append_nil] at h4
          rw [h5, ← h4, List.append_assoc] at h1
          have := congrArg List.length h1
          simp only [List.length_append] at this
          have hx0 : x = [] := List.eq_nil_of_length_eq_zero (by omega)
          subst hx0
          exact absurd (limboMark_head h2) (by decide)
        · rw [if_neg hq]
          have hl : ((bNext p).drop 1).length < n := by
            have h1 := congrArg List.length hpre
            simp only [List.length_append] at h1
            have h2 : (bNext p).length ≠ 0 := fun e => hq (List.eq_nil_of_length_eq_zero e)
            simp only [List.length_drop]
            omega
          obtain ⟨r, r1, r2, r3⟩ := bLoop_iff n ((bNext p).drop 1) hl
          refine ⟨r, r1, fun hr => ?_, ?_⟩
          · obtain ⟨a, x, h1, h2⟩ := r2 hr
            obtain ⟨pr, hpr⟩ := (List.drop_suffix 1 (bNext p)).trans (bNext_suffix p)
            exact ⟨pr ++ a, x, by rw [List.append_assoc, ← h1, hpr], h2⟩
          · rintro ⟨a, x, h1, h2, h3⟩
            have ha : a ≠ [] := by rintro rfl; rw [List.nil_append] at h1; exact hm (h1 ▸ h2)
            obtain ⟨pr, a2, h4, h5⟩ := mark_skipped p a x h1 h2 ha h3
            refine r3 ⟨a2, x, ?_, h2, fun hb => h3 (h5 ▸ behind_append hb)⟩
            have h6 : pr ++ (bNext p).drop 1 = pr ++ (a2 ++ x) := by
              rw [← h4, ← List.append_assoc, ← h5]; exact h1
            exact List.append_cancel_left h6

/-- The rule of `.bas` files, for any file. -/
theorem basic_rule (st : Stack) (i : Input) (hf : Fits st i.text) :
    let classic := ∃ l ∈ textLines i.text, Numbered (seen l)
    let visual := ∃ n ∈ i.filenames.getD [], VbName n
    (classic → basic st i = some (some "classic_basic")) ∧ (¬ classic → visual → basic st i = some (some "visualbasic")) ∧
    (¬ classic → ¬ visual → basic st i = some (some "structured_basic")) := by
  have hl := lineLoop_eq st (fun (_ : Unit) line => some (if basicLine line then Except.error (some "classic_basic") else .ok ()))
    (fun _ => rfl) (i.text.length + 1) i.text () (Nat.lt_succ_self _) hf
  rw [overLines_unit basicLine (some "classic_basic") _ (fun _ _ => rfl)] at hl
  simp only [basic, hl]
  have e1 : ((textLines i.text).any fun l => basicLine (seen l)) = true ↔ ∃ l ∈ textLines i.text, Numbered (seen l) := by
    simp only [List.any_eq_true, basicLine_iff]
  have e2 : (i.filenames.getD []).any vbFile = true ↔ ∃ n ∈ i.filenames.getD [], VbName n := by
    simp only [List.any_eq_true, vbFile_iff]
  rw [← e1, ← e2]
  generalize ((textLines i.text).any fun l => basicLine (seen l)) = u
  generalize (i.filenames.getD []).any vbFile = v
  cases u <;> cases v <;> simp

/-- C61, `.b`: Limbo if the text has a mark of Limbo that does not directly follow an "include"; if it has no mark at all, the rule of
`.bas` files. (A text whose only marks directly follow an "include" can be either.) -/
theorem C61_b (o : Oracles) (st : Stack) (before : Byte) (stem c : Bytes) (disk : Option Bytes) (files : Option (List Bytes))
    (hf : Fits st c) :
    let r := detect o st before (source before (stem ++ bs "." ++ bs "b") disk (some c) files)
    let mark := ∃ a x, c = a ++ x ∧ LimboMark x
    let clear := ∃ a x, c = a ++ x ∧ LimboMark x ∧ ¬ BehindInclude a
    let classic := ∃ l ∈ textLines c, Numbered (seen l)
    let visual := ∃ n ∈ files.getD [], VbName n
    (clear → r = some (some "limbo")) ∧
    (¬ mark → classic → r = some (some "classic_basic")) ∧
    (¬ mark → ¬ classic → visual → r = some (some "visualbasic")) ∧
    (¬ mark → ¬ classic → ¬ visual → r = some (some "structured_basic")) := by
  have h := ext_decides o st before stem (bs "b") "b" disk (some c) files (by decide +kernel) (by decide +kernel)
  obtain ⟨x, x1, x2, x3⟩ := bLoop_iff (c.length + 1) c (Nat.lt_succ_self _)
  obtain ⟨b1, b2, b3⟩ := basic_rule st (source before (stem ++ bs "." ++ bs "b") disk (some c) files) hf
  simp only [h, disambiguate, Detector.b, source_text, x1, Option.bind_some]
  refine ⟨fun hc => by rw [x3 hc]; rfl, fun hm hc => ?_, fun hm hc hv => ?_, fun hm hc hv => ?_⟩
  all_goals
    have hx : x = false := by
      cases x with
      | false => rfl
      | true => exact absurd (x2 rfl) hm
    rw [hx, if_neg (by decide)]
  · exact b1 hc
  · exact b2 hc hv
  · exact b3 hc hv

/-- Both kinds of files; and a mark that is hidden by the "include" in front of it. -/
example : (∃ a x, bs "x: int;\ncase y { * => }\n" = a ++ x ∧ LimboMark x ∧ ¬ BehindInclude a) ∧
    detect mute .strict 0 (source 0 (bs "a.b") none (some (bs "10 print 1\n")) none) = some (some "classic_basic") ∧
    detect mute .strict 0 (source 0 (bs "a.b") none (some (bs "include break ;\n")) none) = some (some "structured_basic") := by
  refine ⟨⟨bs "x: int;\n", bs "case y { * => }\n", by decide +kernel, .inr (.inr (.inr ⟨bs "case", by decide +kernel, ⟨bs " y { * => }\n", by decide +kernel⟩,
    bs "case y ", bs " * => }\n", by decide +kernel⟩)), ?_⟩, by decide +kernel, by decide +kernel⟩
  rintro ⟨a, w, h1, h2, h3⟩
  have hl : (bs "x: int;\n").getLast? = w.getLast? := by
    rw [h1]; rw [List.getLast?_append]; cases hw : w.getLast? with
    | none => exact absurd (List.getLast?_eq_none_iff.mp hw) h2
    | some y => rfl
  have : w.getLast? = some 10 := hl.symm
  exact absurd (h3 10 (List.mem_of_getLast? this)) (by decide)

end Ohcount.Detector
