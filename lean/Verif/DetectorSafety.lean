/-
Memory safety of language detection: C31.
-/
import Verif.DetectorProps

namespace Ohcount.Detector

open Ohcount Ohcount.Tables Ohcount.Diff

set_option maxRecDepth 20000

/-! ### Specification -/

/-- No stretch of more than 80 bytes without a line end. -/
def ShortLines (text : Bytes) : Prop :=
  ∀ a l b, text = a ++ l ++ b → (∀ x ∈ l, x ≠ 10 ∧ x ≠ 13) → l.length ≤ 80

theorem ShortLines.suffix {p q : Bytes} (h : ShortLines p) (hs : q <:+ p) : ShortLines q := by
  obtain ⟨t, rfl⟩ := hs
  intro a l b he hl
  exact h (t ++ a) l b (by rw [he]; simp) hl

theorem notNl_iff (b : Byte) : notNl b = true ↔ b ≠ 10 ∧ b ≠ 13 := by
  simp only [notNl, isNl, Bool.not_eq_true', Bool.or_eq_false_iff, beq_eq_false_iff_ne]
  exact And.comm

theorem ShortLines.line {p : Bytes} (h : ShortLines p) : (p.takeWhile notNl).length ≤ 80 := by
  refine h [] (p.takeWhile notNl) (p.dropWhile notNl) (by simp) ?_
  intro x hx
  exact (notNl_iff x).mp ((List.all_eq_true.mp List.all_takeWhile) x hx)

theorem rest_suffix (p : Bytes) : ((p.dropWhile notNl).dropWhile isNl) <:+ p :=
  (List.dropWhile_suffix _).trans (List.dropWhile_suffix _)

theorem rest_shorter {p : Bytes} (hp : p ≠ []) : ((p.dropWhile notNl).dropWhile isNl).length < p.length := by
  cases p with
  | nil => exact absurd rfl hp
  | cons c p =>
    rw [List.dropWhile_cons]
    split
    · have := (List.dropWhile_suffix (p := isNl) (l := p.dropWhile notNl)).length_le
      have := (List.dropWhile_suffix (p := notNl) (l := p)).length_le
      simp only [List.length_cons]; omega
    · rename_i hc
      have : isNl c = true := by simpa [notNl] using hc
      rw [List.dropWhile_cons, if_pos this]
      have := (List.dropWhile_suffix (p := isNl) (l := p)).length_le
      simp only [List.length_cons]; omega

theorem cstr_length_le (p : Bytes) : (cstr p).length ≤ p.length := (List.takeWhile_sublist _).length_le

/-- The line buffer is large enough, or the byte behind it may be overwritten. -/
def Fits (st : Stack) (p : Bytes) : Prop := st.pad = true ∨ ShortLines p

theorem fetchLine_fits {st : Stack} {p : Bytes} (h : Fits st p) :
    ∃ line, fetchLine st (p.takeWhile notNl) = some line ∧ (st.pad = true ∨ line.length ≤ 80) := by
  rcases h with h | h
  · exact ⟨_, by rw [fetchLine, if_pos (Or.inr h)], Or.inl h⟩
  · refine ⟨_, by rw [fetchLine, if_pos (Or.inl h.line)], Or.inr ?_⟩
    have h1 := h.line
    have h2 := cstr_length_le ((p.takeWhile notNl).take 81)
    have h3 : ((p.takeWhile notNl).take 81).length ≤ (p.takeWhile notNl).length := List.length_take_le' ..
    omega

theorem lineLoop_defined {σ : Type} (st : Stack) (f : σ → Bytes → Option (Except (Option String) σ))
    (hf : ∀ s line, (st.pad = true ∨ line.length ≤ 80) → (f s line).isSome = true) :
    ∀ (n : Nat) (p : Bytes) (s : σ), p.length < n → Fits st p → (lineLoop st f n p s).isSome = true := by
  intro n
  induction n with
  | zero => intro p s h; omega
  | succ n ih =>
    intro p s hn hs
    unfold lineLoop
    split
    · rfl
    · rename_i hp
      obtain ⟨line, hl, hfit⟩ := fetchLine_fits hs
      rw [hl, Option.bind_some]
      obtain ⟨r, hr⟩ := Option.isSome_iff_exists.mp (hf s line hfit)
      rw [hr, Option.bind_some]
      cases r with
      | error e => rfl
      | ok s' =>
        have := rest_shorter hp
        refine ih _ _ (by omega) ?_
        rcases hs with h | h
        · exact Or.inl h
        · exact Or.inr (h.suffix (rest_suffix p))

theorem lineLoop_overflow {σ : Type} (f : σ → Bytes → Option (Except (Option String) σ)) (n : Nat)
    (p : Bytes) (s : σ) (hp : 81 ≤ (p.takeWhile notNl).length) : lineLoop .strict f n p s = none := by
  cases n with
  | zero => rfl
  | succ n =>
    unfold lineLoop
    rw [if_neg (by rintro rfl; simp at hp)]
    rw [fetchLine, if_neg (fun h => h.elim (fun h => by omega) (fun h => by cases h))]
    rfl

/-! ### The functions of one line -/

theorem copyBuf_fits {st : Stack} {w : Bytes} (h : st.pad = true ∨ w.length ≤ 80) : copyBuf st w = some w := by
  rw [copyBuf, if_pos (h.symm)]

theorem rd_prefix {p : Bytes} {s : String} (h : starts p s = true) : ∃ c, rd p (bs s).length = some c := by
  have hl := (List.isPrefixOf_iff_prefix.mp h).length_le
  unfold rd
  split
  · exact ⟨_, List.getElem?_eq_getElem (by assumption)⟩
  · rw [if_pos (by omega)]; exact ⟨_, rfl⟩

theorem stLine_defined : ∀ (n : Nat) (p : Bytes) (s : Bool × Bool × Bool), p.length < n →
    (stLine n p s).isSome = true := by
  intro n
  induction n with
  | zero => intro p s h; omega
  | succ n ih =>
    rintro p ⟨a, s, e⟩ h
    cases p with
    | nil => rfl
    | cons c p =>
      simp only [List.length_cons] at h
      have h1 : ((p.dropWhile isBlank).drop 1).length ≤ p.length := by
        have := (List.dropWhile_suffix (p := isBlank) (l := p)).length_le
        rw [List.length_drop]; omega
      simp only [stLine]
      split
      · split
        · rfl
        · exact ih _ _ (by omega)
      · split
        · rfl
        · exact ih _ _ (by omega)

theorem rest_word (f : Byte → Bool) (c : Byte) (p : Bytes) :
    (((c :: p).dropWhile f).drop 1).length ≤ p.length := by
  have := (List.dropWhile_suffix (p := f) (l := c :: p)).length_le
  rw [List.length_drop]; simp only [List.length_cons] at this; omega

theorem mOctave_defined (st : Stack) : ∀ (n : Nat) (prev : Option Byte) (p : Bytes) (o : Bool), p.length < n →
    (st.pad = true ∨ p.length ≤ 80) → (mOctave st n prev p o).isSome = true := by
  intro n
  induction n with
  | zero => intro _ p _ h; omega
  | succ n ih =>
    intro prev p o h hs
    cases p with
    | nil => rfl
    | cons c p =>
      simp only [List.length_cons] at h hs
      have h1 := rest_word (fun b => islower b || b == 95) c p
      have h2 : ((c :: p).takeWhile fun b => islower b || b == 95).length ≤ p.length + 1 :=
        (List.takeWhile_sublist _).length_le
      simp only [mOctave]
      generalize (islower c && match prev with | some pr => !isalnum pr | none => false) = cnd
      split
      · split
        · rw [copyBuf_fits (hs.imp_right (fun _ => by omega))]
          refine ih _ _ _ ?_ ?_
          · omega
          · exact hs.imp_right (fun _ => by omega)
        · refine ih _ _ _ ?_ ?_
          · omega
          · exact hs.imp_right (fun _ => by omega)
      · exact ih _ _ _ (by omega) (hs.imp_right (fun _ => by omega))

theorem some_if_rd {p : Bytes} {s : String} {n : Nat} (hn : (bs s).length = n) (g : Byte → Bool) :
    ∃ x, (if starts p s = true then (rd p n).map g else some false) = some x := by
  split
  · rename_i h
    obtain ⟨c, hc⟩ := rd_prefix h
    rw [hn] at hc
    exact ⟨_, by rw [hc]; rfl⟩
  · exact ⟨_, rfl⟩

theorem fn_defined (q : Bytes) : ∃ x, (if starts q "fn" = true then (rd q 2).bind fun d =>
            if (d == 32) = true then (rd q 3).map fun e => e == 40 else some (d == 40)
          else some false) = some x := by
  split
  · rename_i h
    obtain ⟨c, hc⟩ := rd_prefix h
    rw [show (bs "fn").length = 2 by decide +kernel] at hc
    rw [hc, Option.bind_some]
    split
    · rename_i h32
      have : 2 < q.length := by
        unfold rd at hc
        split at hc
        · assumption
        · split at hc
          · cases hc; exact absurd h32 (by decide)
          · cases hc
      have : ∃ d, rd q 3 = some d := by
        unfold rd
        split
        · exact ⟨_, List.getElem?_eq_getElem (by assumption)⟩
        · rw [if_pos (by omega)]; exact ⟨_, rfl⟩
      obtain ⟨d, hd⟩ := this
      exact ⟨_, by rw [hd]; rfl⟩
    · exact ⟨_, rfl⟩
  · exact ⟨_, rfl⟩

theorem mLimbo_defined : ∀ (n : Nat) (p : Bytes) (k : Nat), p.length < n → (mLimbo n p k).isSome = true := by
  intro n
  induction n with
  | zero => intro p _ h; omega
  | succ n ih =>
    intro p k h
    cases p with
    | nil => rfl
    | cons c p =>
      simp only [List.length_cons] at h
      simp only [mLimbo]
      split
      · obtain ⟨a, ha⟩ := some_if_rd (p := p.drop 1) (s := "module") (n := 6) (by decide +kernel) (fun d => !isalnum d)
        obtain ⟨b, hb⟩ := some_if_rd (p := p.drop 1) (s := "adt") (n := 3) (by decide +kernel) (fun d => !isalnum d)
        obtain ⟨f, hf⟩ := fn_defined (p.drop 1)
        obtain ⟨e, he⟩ := some_if_rd (p := p.drop 1) (s := "con") (n := 3) (by decide +kernel) isBlank
        rw [ha, Option.bind_some, hb, Option.bind_some, hf, Option.bind_some, he, Option.bind_some]
        exact ih _ _ (by rw [List.length_drop]; omega)
      · exact ih _ _ (by omega)

theorem mMath_defined : ∀ (n : Nat) (p : Bytes) (k : Nat), p.length < n → (mMath n p k).isSome = true := by
  intro n
  induction n with
  | zero => intro p _ h; omega
  | succ n ih =>
    intro p k h
    cases p with
    | nil => rfl
    | cons c p =>
      simp only [List.length_cons] at h
      simp only [mMath]
      split
      · rfl
      · rename_i d q hq
        have : (d :: q).length ≤ p.length + 1 := by
          rw [← hq]
          split
          · have := (List.dropWhile_suffix (p := isBlank) (l := p)).length_le; omega
          · simp
        simp only [List.length_cons] at this
        exact ih _ _ (by omega)

theorem mTelltale_defined (line : Bytes) (s : MScores) : (mTelltale line s).isSome = true := by
  have hc : ∀ p : Bytes, ∃ x, (if (hd p == 47) = true then (rd p 1).map (fun d => d == 47 || d == 42) else some false) = some x := by
    intro p
    split
    · rename_i h
      have : ∃ d, rd p 1 = some d := by
        cases p with
        | nil => exact absurd h (by decide)
        | cons c p =>
          unfold rd
          split
          · exact ⟨_, List.getElem?_eq_getElem (by assumption)⟩
          · rename_i hl
            rw [if_pos (by simp only [List.length_cons] at hl ⊢; omega)]; exact ⟨_, rfl⟩
      obtain ⟨d, hd⟩ := this
      exact ⟨_, by rw [hd]; rfl⟩
    · exact ⟨_, rfl⟩
  obtain ⟨x, hx⟩ := hc (line.dropWhile isBlank)
  simp only [mTelltale, hx, Option.bind_some, apply_ite Option.isSome, Option.isSome_some, ite_self]

theorem mLine_defined (st : Stack) (s : MScores) (line : Bytes) (h : st.pad = true ∨ line.length ≤ 80) :
    (mLine st s line).isSome = true := by
  obtain ⟨s1, h1⟩ := Option.isSome_iff_exists.mp (mTelltale_defined line s)
  obtain ⟨o, h2⟩ := Option.isSome_iff_exists.mp (mOctave_defined st (line.length + 1) none line s1.octave (by omega) h)
  obtain ⟨l, h3⟩ := Option.isSome_iff_exists.mp (mLimbo_defined (line.length + 1) line s1.limbo (by omega))
  obtain ⟨a, h4⟩ := Option.isSome_iff_exists.mp (mMath_defined (line.length + 1) line s1.mathematica (by omega))
  simp only [mLine, h1, h2, h3, h4, Option.bind_some]
  rfl

theorem hWords_defined (st : Stack) : ∀ (n : Nat) (prev : Option Byte) (p : Bytes), p.length < n →
    prev.isSome = true → (st.pad = true ∨ p.length ≤ 80) → (hWords st n prev p).isSome = true := by
  intro n
  induction n with
  | zero => intro _ p h; omega
  | succ n ih =>
    intro prev p h hp hs
    cases p with
    | nil => rfl
    | cons c p =>
      simp only [List.length_cons] at h hs
      obtain ⟨pr, rfl⟩ := Option.isSome_iff_exists.mp hp
      have h1 := rest_word islower c p
      have h2 : ((c :: p).takeWhile islower).length ≤ p.length + 1 :=
        (List.takeWhile_sublist _).length_le
      have hs' : ∀ k : Nat, k ≤ p.length + 1 → (st.pad = true ∨ k ≤ 80) := by
        intro k hk; exact hs.imp_right (fun _ => by omega)
      simp only [hWords, Option.bind_some]
      split
      · split
        · split
          · rw [copyBuf_fits (hs' _ h2), Option.bind_some]
            split
            · rfl
            · exact ih _ _ (by omega) rfl (hs' _ (by omega))
          · exact ih _ _ (by omega) rfl (hs' _ (by omega))
        · exact ih _ _ (by omega) rfl (hs' _ (by omega))
      · exact ih _ _ (by omega) rfl (hs' _ (by omega))

theorem hInclude_defined (st : Stack) (line : Bytes) (h : st.pad = true ∨ line.length ≤ 80) :
    (hInclude st line).isSome = true := by
  have hs' : ∀ k : Nat, k ≤ line.length → (st.pad = true ∨ k ≤ 80) := by
    intro k hk; exact h.imp_right (fun _ => by omega)
  unfold hInclude
  split
  · dsimp only
    obtain ⟨x, hx⟩ := some_if_rd (p := (line.drop 1).dropWhile isBlank) (s := "include") (n := 7)
      (by decide +kernel) isBlank
    rw [hx, Option.bind_some]
    split
    · split
      · rw [copyBuf_fits, Option.bind_some]
        · split
          · rfl
          · rw [copyBuf_fits, Option.bind_some]
            · rfl
            · refine hs' _ ?_
              rw [List.length_reverse]
              refine Nat.le_trans (List.takeWhile_sublist _).length_le ?_
              rw [List.length_reverse]
              exact List.length_take_le' _ _
        · refine hs' _ ?_
          refine Nat.le_trans (List.takeWhile_sublist _).length_le ?_
          rw [List.length_drop]
          refine Nat.le_trans (Nat.sub_le _ _) ?_
          refine Nat.le_trans (List.dropWhile_suffix _).length_le ?_
          rw [List.length_drop]
          refine Nat.le_trans (Nat.sub_le _ _) ?_
          refine Nat.le_trans (List.dropWhile_suffix _).length_le ?_
          rw [List.length_drop]
          exact Nat.sub_le _ _
      · rfl
    · rfl
  · rfl

/-! ### The disambiguators -/

theorem basic_defined (st : Stack) (i : Input) (h : Fits st i.text) : (basic st i).isSome = true := by
  rw [basic, Option.isSome_map]
  exact lineLoop_defined st _ (fun _ _ _ => rfl) _ _ _ (by omega) h

theorem m_defined (st : Stack) (i : Input) (h : Fits st i.text) : (m st i).isSome = true := by
  simp only [m]
  rw [Option.isSome_map]
  refine lineLoop_defined st _ (fun s line hl => ?_) _ _ _ (by omega) h
  rw [Option.isSome_map]
  exact mLine_defined st s line hl

theorem smalltalk_defined (st : Stack) (i : Input) (h : Fits st i.text) : (smalltalk st i).isSome = true := by
  simp only [smalltalk]
  rw [Option.isSome_map]
  refine lineLoop_defined st _ (fun s line hl => ?_) _ _ _ (by omega) h
  rw [Option.isSome_map]
  exact stLine_defined _ _ _ (by omega)

theorem h_defined (st : Stack) (i : Input) (hp : st.pad = true) (hu : st.under.isSome = true) :
    (Detector.h st i).isSome = true := by
  have : ∃ b, (if i.ext = bs "h" then
      if st.pad then
        some ((i.filenames.getD []).any fun f => decide (f = i.filename.dropLast ++ bs "m"))
      else none
    else some false) = some b := by
    split
    · exact ⟨_, rfl⟩
    · exact ⟨_, rfl⟩
  obtain ⟨b, hb⟩ := this
  simp only [Detector.h, hb, Option.bind_some]
  split
  · rfl
  · rw [Option.isSome_map]
    refine lineLoop_defined st _ (fun s line hl => ?_) _ _ _ (by omega) (Or.inl hp)
    obtain ⟨x, hx⟩ := Option.isSome_iff_exists.mp (hInclude_defined st line hl)
    obtain ⟨y, hy⟩ := Option.isSome_iff_exists.mp
      (hWords_defined st (line.length + 1) st.under line (by omega) hu hl)
    rw [hx, Option.bind_some, hy]
    split <;> rfl

theorem bStep_le (p q : Bytes) (h : bStep p = some (.ok q)) : q.length ≤ p.length := by
  unfold bStep at h
  dsimp only at h
  obtain ⟨x, _, h⟩ := Option.bind_eq_some_iff.mp h
  split at h
  · cases h
  · obtain ⟨y, _, h⟩ := Option.bind_eq_some_iff.mp h
    split at h
    · have hle : ((p.drop 7).dropWhile isBlank).length ≤ p.length := by
        refine Nat.le_trans (List.dropWhile_suffix _).length_le ?_
        rw [List.length_drop]; exact Nat.sub_le _ _
      split at h
      · obtain ⟨z, _, h⟩ := Option.bind_eq_some_iff.mp h
        simp only [Option.some.injEq] at h
        split at h
        · cases h
        · cases h; exact hle
      · cases h; exact hle
    · split at h
      · simp only [Option.some.injEq] at h
        split at h <;> cases h
        exact Nat.le_refl _
      · split at h
        · simp only [Option.some.injEq] at h
          split at h <;> cases h
          exact Nat.le_refl _
        · cases h; exact Nat.le_refl _

theorem bStep_defined (p : Bytes) : (bStep p).isSome = true := by
  unfold bStep
  dsimp only
  obtain ⟨x, hx⟩ := some_if_rd (p := p) (s := "implement") (n := 9) (by decide +kernel) (fun c => c == 32 || c == 9)
  obtain ⟨y, hy⟩ := some_if_rd (p := p) (s := "include") (n := 7) (by decide +kernel) (fun c => c == 32 || c == 9)
  rw [hx, Option.bind_some]
  split
  · rfl
  · rw [hy, Option.bind_some]
    split
    · split
      · rename_i h
        have : ∃ d, rd ((p.drop 7).dropWhile isBlank) 1 = some d := by
          cases hq : (p.drop 7).dropWhile isBlank with
          | nil => rw [hq] at h; exact absurd h (by decide)
          | cons c q =>
            unfold rd
            split
            · exact ⟨_, List.getElem?_eq_getElem (by assumption)⟩
            · rename_i hl
              rw [if_pos (by simp only [List.length_cons] at hl ⊢; omega)]; exact ⟨_, rfl⟩
        obtain ⟨d, hd⟩ := this
        rw [hd]; rfl
      · rfl
    · split
      · rfl
      · split <;> rfl

theorem bLoop_defined : ∀ (n : Nat) (p : Bytes), p.length < n → (bLoop n p).isSome = true := by
  intro n
  induction n with
  | zero => intro p h; omega
  | succ n ih =>
    intro p h
    unfold bLoop
    split
    · rfl
    · obtain ⟨r, hr⟩ := Option.isSome_iff_exists.mp (bStep_defined p)
      rw [hr, Option.bind_some]
      cases r with
      | error _ => rfl
      | ok q =>
        dsimp only
        split
        · rfl
        · rename_i hq
          have := bStep_le p q hr
          have : 0 < q.length := List.length_pos_iff.mpr hq
          exact ih _ (by rw [List.length_drop]; omega)

theorem b_defined (st : Stack) (i : Input) (h : Fits st i.text) : (b st i).isSome = true := by
  obtain ⟨r, hr⟩ := Option.isSome_iff_exists.mp (bLoop_defined (i.text.length + 1) i.text (by omega))
  simp only [b, hr, Option.bind_some]
  split
  · rfl
  · exact basic_defined st i h

theorem quoted_le (q : Byte) (p : Bytes) (i : Nat) : (quoted q p i).1.length ≤ p.length := by
  fun_induction quoted q p i with
  | case1 => exact Nat.le_refl _
  | case2 => exact Nat.le_refl _
  | case3 _ _ _ _ ih => simp only [List.length_cons]; omega

theorem skipQuote_le (q : Byte) (p : Bytes) (i : Nat) : (skipQuote q p i).1.length ≤ p.length := by
  unfold skipQuote
  split
  · exact Nat.le_refl _
  · split
    · rename_i c p' _
      have := quoted_le q p' (i + 1)
      simp only [List.length_cons]; omega
    · exact Nat.le_refl _

theorem fortranLine_defined : ∀ (n : Nat) (p : Bytes) (i : Nat) (bl : Bool), p.length < n →
    ∃ r, fortranLine n p i bl = some r ∧ ∀ q, r = .ok q → q = [] ∨ (q.length ≤ p.length ∧ ∃ c t, q = c :: t ∧ isNl c = true) := by
  intro n
  induction n with
  | zero => intro p _ _ h; omega
  | succ n ih =>
    intro p i bl h
    cases p with
    | nil => exact ⟨_, rfl, fun q hq => by cases hq; exact Or.inl rfl⟩
    | cons c0 p1 =>
      simp only [List.length_cons] at h
      have lift : ∀ {x : Option (Except Unit Bytes)} {k : Bytes}, k.length ≤ p1.length →
          (∃ r, x = some r ∧ ∀ q, r = .ok q → q = [] ∨ (q.length ≤ k.length ∧ ∃ c t, q = c :: t ∧ isNl c = true)) →
          ∃ r, x = some r ∧ ∀ q, r = .ok q → q = [] ∨ (q.length ≤ (c0 :: p1).length ∧ ∃ c t, q = c :: t ∧ isNl c = true) := by
        intro x k hk ⟨r, h1, h2⟩
        refine ⟨r, h1, fun q hq => ?_⟩
        rcases h2 q hq with h3 | ⟨h3, h4⟩
        · exact Or.inl h3
        · exact Or.inr ⟨by simp only [List.length_cons]; omega, h4⟩
      have h2 := skipQuote_le 34 p1 (i + 1)
      have h3 := skipQuote_le 39 (skipQuote 34 p1 (i + 1)).1 (skipQuote 34 p1 (i + 1)).2
      have h4 : (p1.dropWhile notNl).length ≤ p1.length := (List.dropWhile_suffix _).length_le
      simp only [fortranLine]
      generalize (if i + 1 ≤ 5 then bl && hd p1 == 32 else bl) = bl'
      split
      · rename_i hc
        exact ⟨_, rfl, fun q hq => by cases hq; exact Or.inr ⟨Nat.le_refl _, _, _, rfl, hc⟩⟩
      · split
        · exact ⟨_, rfl, fun q hq => by cases hq⟩
        · split
          · exact ⟨_, rfl, fun q hq => by cases hq⟩
          · split
            · exact lift h4 (ih _ _ _ (by omega))
            · split
              · exact ⟨_, rfl, fun q hq => by cases hq⟩
              · exact lift (by omega) (ih _ _ _ (by omega))

theorem fortranLoop_defined : ∀ (n : Nat) (p : Bytes), p.length < n → (fortranLoop n p).isSome = true := by
  intro n
  induction n with
  | zero => intro p h; omega
  | succ n ih =>
    intro p h
    cases p with
    | nil => rfl
    | cons c p =>
      simp only [fortranLoop]
      split
      · obtain ⟨r, hr, hq⟩ := fortranLine_defined ((c :: p).length + 1) (c :: p) (if c == 9 then 5 else 1) (isBlank c) (by omega)
        rw [hr, Option.bind_some]
        cases r with
        | error _ => rfl
        | ok q =>
          rcases hq q rfl with rfl | ⟨hl, d, t, rfl, hd⟩
          · dsimp only [List.dropWhile_nil]; exact ih _ (by simp only [List.length_cons] at h; simp only [List.length_nil]; omega)
          · dsimp only
            rw [List.dropWhile_cons, if_pos hd]
            have := (List.dropWhile_suffix (p := isNl) (l := t)).length_le
            simp only [List.length_cons] at h hl
            exact ih _ (by omega)
      · split
        · rfl
        · have := rest_shorter (p := c :: p) (by simp)
          exact ih _ (by omega)

theorem fortran_defined (i : Input) : (fortran i).isSome = true := by
  rw [fortran, Option.isSome_map]
  exact fortranLoop_defined _ _ (by omega)

theorem fsLoop_defined : ∀ (n : Nat) (p : Bytes) (s : Nat × Nat), p.length < n → (fsLoop n p s).isSome = true := by
  intro n
  induction n with
  | zero => intro p _ h; omega
  | succ n ih =>
    rintro p ⟨f, s⟩ h
    unfold fsLoop
    split
    · rfl
    · rename_i hp
      dsimp only
      refine ih _ _ ?_
      have h1 := (List.dropWhile_suffix (p := isBlank) (l := p)).length_le
      by_cases hb : p.dropWhile isBlank = []
      · rw [hb]
        simp only [List.dropWhile_nil, List.length_nil]
        have : 0 < p.length := List.length_pos_iff.mpr hp
        omega
      · have := rest_shorter hb
        omega

theorem fs_defined (i : Input) : (fs i).isSome = true := by
  unfold fs
  split
  · rfl
  · rw [Option.isSome_map]
    exact fsLoop_defined _ _ _ (by omega)

/-- The disambiguators that are safe when the lines fit the buffer. -/
theorem disambiguate_defined (o : Oracles) (st : Stack) (before : Byte)
    (rec : Input → Option (Option String)) (id : String) (i : Input)
    (hid : id ∈ disambiguators) (h1 : id ≠ "aspx") (h2 : id ≠ "h") (h3 : id ≠ "in")
    (hs : Fits st i.text) : (disambiguate o st before rec id i).isSome = true := by
  simp only [disambiguators, List.mem_cons, List.not_mem_nil, or_false] at hid
  rcases hid with rfl | rfl | rfl | rfl | rfl | rfl | rfl | rfl | rfl | rfl | rfl | rfl | rfl | rfl |
    rfl | rfl | rfl | rfl | rfl | rfl <;>
  first
  | exact absurd rfl h1
  | exact absurd rfl h2
  | exact absurd rfl h3
  | simp only [disambiguate]
  all_goals first
  | rfl
  | exact b_defined st i hs
  | exact basic_defined st i hs
  | exact fortran_defined i
  | exact fs_defined i
  | exact m_defined st i hs
  | exact smalltalk_defined st i hs

/-! ### C31 -/

/-- C31, the full claim: detection is defined, i.e. stays within its buffers, for every
file. -/
def C31_full : Prop :=
  ∀ (o : Oracles) (before : Byte) (path : Bytes) (disk contents : Option Bytes) (files : Option (List Bytes)),
    detect o .strict before (source before path disk contents files) ≠ none

/-- C31 is false (1): every file whose first line has more than 80 characters, unless its
extension is listed. -/
theorem C31_long_first_line (o : Oracles) (before : Byte) (stem e line rest : Bytes)
    (disk : Option Bytes) (files : Option (List Bytes)) (he : plain e) (hn : ¬ listed e) (hn' : ¬ listed (lower e))
    (hl : ∀ b ∈ line, b ≠ 10 ∧ b ≠ 13) (h81 : 81 ≤ line.length) :
    detect o .strict before (source before (stem ++ bs "." ++ e) disk (some (line ++ rest)) files) = none := by
  rw [show stem ++ bs "." ++ e = stem ++ 46 :: e by simp [bs]]
  have none_of : ∀ k, ¬ listed k → fromExt k = none := by
    intro k hk
    cases hc : fromExt k with
    | none => rfl
    | some w => exact absurd ⟨w, lookup_mem hc⟩ hk
  have hb : byExt (source before (stem ++ 46 :: e) disk (some (line ++ rest)) files).ext = none := by
    rw [ext_source before stem e he]
    simp only [byExt, none_of e hn]
    exact none_of _ hn'
  rw [detect, detectN, candidate, hb]
  dsimp only
  have htext : (source before (stem ++ 46 :: e) disk (some (line ++ rest)) files).text = line ++ rest := rfl
  have htw : 81 ≤ ((line ++ rest).takeWhile notNl).length := by
    rw [List.takeWhile_append_of_pos (fun x hx => (notNl_iff x).mpr (hl x hx))]
    rw [List.length_append]; omega
  rw [modeline, htext, firstLine]
  rw [if_neg (by intro h; rw [h] at htw; simp at htw)]
  rw [setLine, if_neg (fun h => h.elim (fun h => by omega) (fun h => by cases h))]
  rfl

/-- C31 is false (2): every C header. -/
theorem C31_every_header (o : Oracles) (before : Byte) (stem : Bytes)
    (disk contents : Option Bytes) (files : Option (List Bytes)) :
    detect o .strict before (source before (stem ++ bs ".h") disk contents files) = none := by
  rw [show stem ++ bs ".h" = stem ++ 46 :: bs "h" by simp [bs]]
  have hp : plain (bs "h") := by decide +kernel
  have hx := ext_source before stem (bs "h") hp disk contents files
  have hb : byExt (source before (stem ++ 46 :: bs "h") disk contents files).ext = some (.ambiguous "h") := by
    rw [hx]; decide +kernel
  rw [detect, detectN, candidate_of_ext o _ _ hb]
  simp only [Option.bind_some, disambiguate, Detector.h, hx, if_true]
  rfl

/-- C31 is false (3): the same long line in a file whose extension needs its contents, e.g. a
BASIC program. -/
theorem C31_long_line (o : Oracles) (before : Byte) (stem line rest : Bytes)
    (disk : Option Bytes) (files : Option (List Bytes))
    (hl : ∀ b ∈ line, b ≠ 10 ∧ b ≠ 13) (h81 : 81 ≤ line.length) :
    detect o .strict before (source before (stem ++ bs ".bas") disk (some (line ++ rest)) files) = none := by
  rw [show stem ++ bs ".bas" = stem ++ 46 :: bs "bas" by simp [bs]]
  have hp : plain (bs "bas") := by decide +kernel
  have hx := ext_source before stem (bs "bas") hp disk (some (line ++ rest)) files
  have hb : byExt (source before (stem ++ 46 :: bs "bas") disk (some (line ++ rest)) files).ext = some (.ambiguous "basic") := by
    rw [hx]; decide +kernel
  have htw : 81 ≤ ((line ++ rest).takeWhile notNl).length := by
    rw [List.takeWhile_append_of_pos (fun x hx => (notNl_iff x).mpr (hl x hx))]
    rw [List.length_append]; omega
  rw [detect, detectN, candidate_of_ext o _ _ hb]
  simp only [Option.bind_some, disambiguate, basic]
  rw [show (source before (stem ++ 46 :: bs "bas") disk (some (line ++ rest)) files).text = line ++ rest from rfl]
  rw [lineLoop_overflow _ _ _ _ htw]
  rfl

/-- C31 is false (4): an Emacs mode line without an end is read beyond the buffer, and a
libmagic description that starts with "script" is read before it. -/
theorem C31_negation :
    detect mute .strict 0 (source 0 (bs "a.h") none (some []) none) = none ∧
    detect mute .strict 0 (source 0 (bs "run") none (some (bs "-*- ruby")) none) = none ∧
    detect mute ⟨true, some 32⟩ 0 (source 0 (bs "run") none (some (bs "-*- ruby")) none) = none ∧
    magicParse (bs "script text") = none ∧
    isBinaryFilename .strict (bs "a.xyz") = none ∧ ¬ C31_full := by
  have h : detect mute .strict 0 (source 0 (bs "a.h") none (some []) none) = none := by decide +kernel
  exact ⟨h, by decide +kernel, by decide +kernel, by decide +kernel, by decide +kernel,
    fun hf => hf _ _ _ _ _ _ h⟩

/-- C31, what holds (1): a listed extension, other than those that share their
disambiguator with `.h`, `.aspx` and `.in`, and no line with more than 80 characters. -/
theorem C31_listed_partial (o : Oracles) (before : Byte) (stem e : Bytes) (v : ExtVal)
    (disk contents : Option Bytes) (files : Option (List Bytes))
    (he : plain e) (hv : (e, v) ∈ extensions)
    (h1 : v ≠ .ambiguous "aspx") (h2 : v ≠ .ambiguous "h") (h3 : v ≠ .ambiguous "in")
    (hs : ∀ c, contents = some c → ShortLines c) :
    detect o .strict before (source before (stem ++ bs "." ++ e) disk contents files) ≠ none := by
  rw [show stem ++ bs "." ++ e = stem ++ 46 :: e by simp [bs]]
  have hb : byExt (source before (stem ++ 46 :: e) disk contents files).ext = some v := by
    rw [ext_source before stem e he]; simp only [byExt, fromExt_mem hv]
  rw [detect, detectN, candidate_of_ext o _ _ hb]
  simp only [Option.bind_some]
  cases v with
  | lang n => simp
  | binary => simp
  | ambiguous id =>
    dsimp only
    have hfit : Fits .strict (source before (stem ++ 46 :: e) disk contents files).text := by
      refine Or.inr ?_
      show ShortLines (contents.getD [])
      cases contents with
      | none =>
        intro a l b hab _
        have := congrArg List.length hab
        simp only [Option.getD_none, List.length_nil, List.length_append] at this
        omega
      | some c => exact hs c rfl
    have := disambiguate_defined o .strict before
      (detectN o .strict before (source before (stem ++ 46 :: e) disk contents files).filepath.length) id _
      (C32_functions.2.2.2.2 _ _ hv) (fun h => h1 (by rw [h])) (fun h => h2 (by rw [h])) (fun h => h3 (by rw [h])) hfit
    intro hnone
    rw [hnone] at this
    cases this

/-- C31, what holds (2): on a machine that tolerates the byte behind and before the
buffers, every listed extension but `.in`, whatever the contents. -/
theorem C31_padded_partial (o : Oracles) (st : Stack) (before : Byte) (stem e : Bytes) (v : ExtVal)
    (disk contents : Option Bytes) (files : Option (List Bytes))
    (he : plain e) (hv : (e, v) ∈ extensions) (h3 : v ≠ .ambiguous "in")
    (hp : st.pad = true) (hu : st.under.isSome = true) :
    detect o st before (source before (stem ++ bs "." ++ e) disk contents files) ≠ none := by
  rw [show stem ++ bs "." ++ e = stem ++ 46 :: e by simp [bs]]
  have hb : byExt (source before (stem ++ 46 :: e) disk contents files).ext = some v := by
    rw [ext_source before stem e he]; simp only [byExt, fromExt_mem hv]
  rw [detect, detectN, candidate_of_ext o _ _ hb]
  simp only [Option.bind_some]
  cases v with
  | lang n => simp
  | binary => simp
  | ambiguous id =>
    dsimp only
    by_cases ha : id = "aspx"
    · subst ha
      simp only [disambiguate]
      unfold aspx
      simp only [hp, if_true]
      repeat' split
      all_goals exact Option.some_ne_none _
    · by_cases hh : id = "h"
      · subst hh
        simp only [disambiguate]
        have := h_defined st (source before (stem ++ 46 :: e) disk contents files) hp hu
        intro hnone
        rw [hnone] at this
        cases this
      · have := disambiguate_defined o st before
          (detectN o st before (source before (stem ++ 46 :: e) disk contents files).filepath.length) id _
          (C32_functions.2.2.2.2 _ _ hv) ha hh (fun h => h3 (by rw [h])) (Or.inl hp :
            Fits st (source before (stem ++ 46 :: e) disk contents files).text)
        intro hnone
        rw [hnone] at this
        cases this

example : plain (bs "bas") ∧ (bs "bas", ExtVal.ambiguous "basic") ∈ extensions := by decide +kernel
example : plain (bs "xyz") := by decide +kernel
example : fromExt (bs "xyz") = none := by decide +kernel
example : detect mute .strict 0 (source 0 (bs "a.bas") none (some (bs "10 PRINT")) none) =
    some (some "classic_basic") := by decide +kernel

end Ohcount.Detector
