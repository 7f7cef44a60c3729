import Verif.DetectorEvidence
/-
C61, continued: the scores that decide the language of `.m` files.
-/

namespace Ohcount.Detector

open Ohcount Ohcount.Tables Ohcount.Diff

/-! ### Specification -/

/-- The number of places in the line at which `P` holds of the text before and the text behind. -/
def places (P : Bytes → Bytes → Bool) (l : Bytes) : Nat := (List.range l.length).countP fun k => P (l.take k) (l.drop k)

/-- A comment of Limbo or Octave: number signs and a blank. -/
def hashComment (x : Bytes) : Bool := (bs "#").isPrefixOf x && [32, 9].contains ((x.dropWhile fun b => b == 35).headD 0)

/-- "function" and an opening parenthesis. -/
def functionLine (x : Bytes) : Bool := (bs "function").isPrefixOf x && (skipBlanks (x.drop 8)).headD 0 == 40

/-- A line that speaks for Matlab. -/
def matlabLine (l : Bytes) : Bool :=
  let x := skipBlanks l
  (bs "%").isPrefixOf x || hashComment x || functionLine x

/-- A line that speaks for Objective C. -/
def objcLine (l : Bytes) : Bool :=
  ["#import", "//", "/*", "+", "-", "@implementation", "@interface"].any fun w => (bs w).isPrefixOf (skipBlanks l)

/-- The word `k`, ended. -/
def wordHere (k : String) (x : Bytes) : Bool := (bs k).isPrefixOf x && !isalnum ((x.drop (bs k).length).headD 0)

/-- A declaration of Limbo. -/
def limboDecl (x : Bytes) : Bool :=
  match x with
  | 58 :: b :: t => [32, 9].contains b && (wordHere "module" t || wordHere "adt" t ||
      ["fn (", "fn(", "con ", "con\t"].any fun w => (bs w).isPrefixOf t)
  | _ => false

/-- A mark of Mathematica: a comment, one of three operators, or "&" as a postfix operator. -/
def mathMark (pre x : Bytes) : Bool :=
  (["(*", "/.", "__", "@@"].any fun w => (bs w).isPrefixOf x) ||
  ((bs "&").isPrefixOf x && !waits 38 pre && [44, 41, 93].contains ((skipBlanks (x.drop 1)).headD 0))

/-- Points of one line. -/
def limboPoints (l : Bytes) : Nat := (if hashComment (skipBlanks l) then 1 else 0) + places (fun _ x => limboDecl x) l
def mathPoints (l : Bytes) : Nat := places mathMark l
def matlabPoints (l : Bytes) : Nat := if matlabLine l then 1 else 0
def objcPoints (l : Bytes) : Nat := if objcLine l then 1 else 0

def octaveWords : List Bytes := [bs "end_try_catch", bs "end_unwind_protect", bs "endfunction", bs "endwhile"]

/-- A word can start behind `a`. -/
def WordMayStart (a : Bytes) : Prop := ∃ b, a.getLast? = some b ∧ isalnum b = false

/-- Behind `a` one is inside a run of small letters and underscores that started as a word. -/
def InWord (a : Bytes) : Prop :=
  ∃ a1 c a2, a = a1 ++ c :: a2 ∧ WordMayStart a1 ∧ islower c = true ∧ ∀ b ∈ a2, islower b = true ∨ b = 95

/-- The line has a word of Octave, not at its start. -/
def OctaveLine (l : Bytes) : Prop :=
  ∃ w ∈ octaveWords, ∃ a b, l = a ++ w ++ b ∧ WordMayStart a ∧ ¬ InWord a ∧ wordChar (b.headD 0) = false

/-- A file name that speaks against Objective C. -/
def CName (f : Bytes) : Prop := (∃ e ∈ [bs ".cpp", bs ".c++", bs ".cxx"], ∃ s, f = s ++ e) ∨ f ∈ [bs ".cc", bs ".c", bs ".C"]

/-! ### Counting -/

def placesFrom (P : Bytes → Bytes → Bool) (pre p : Bytes) : Nat := (List.range p.length).countP fun k => P (pre ++ p.take k) (p.drop k)

theorem placesFrom_nil (P : Bytes → Bytes → Bool) (pre : Bytes) : placesFrom P pre [] = 0 := rfl

theorem placesFrom_cons (P : Bytes → Bytes → Bool) (pre : Bytes) (c : Byte) (p : Bytes) :
    placesFrom P pre (c :: p) = (if P pre (c :: p) then 1 else 0) + placesFrom P (pre ++ [c]) p := by
  unfold placesFrom
  rw [List.length_cons, List.range_succ_eq_map, List.countP_cons, List.countP_map]
  simp only [List.take_zero, List.append_nil, List.drop_zero]
  rw [Nat.add_comm]
  congr 1
  refine List.countP_congr fun k _ => ?_
  simp

theorem places_eq (P : Bytes → Bytes → Bool) (l : Bytes) : places P l = placesFrom P [] l := rfl

theorem mLimbo_cons (n : Nat) (c : Byte) (p : Bytes) (k : Nat) : mLimbo (n + 1) (c :: p) k =
    if c == 58 && isBlank (hd p) then
      (if starts (p.drop 1) "module" then (rd (p.drop 1) 6).map fun d => !isalnum d else some false).bind fun a =>
      (if starts (p.drop 1) "adt" then (rd (p.drop 1) 3).map fun d => !isalnum d else some false).bind fun b =>
      (if starts (p.drop 1) "fn" then (rd (p.drop 1) 2).bind fun d =>
          if d == 32 then (rd (p.drop 1) 3).map fun e => e == 40 else some (d == 40)
        else some false).bind fun f =>
      (if starts (p.drop 1) "con" then (rd (p.drop 1) 3).map isBlank else some false).bind fun e =>
      mLimbo n (p.drop 1) (if a || b || f || e then k + 1 else k)
    else mLimbo n p k := rfl

theorem mLimbo_eq : ∀ (n : Nat) (pre p : Bytes) (k : Nat), p.length < n →
    mLimbo n p k = some (k + placesFrom (fun _ x => limboDecl x) pre p)
  | 0, _, _, _, h => by omega
  | n + 1, pre, [], k, _ => by simp [mLimbo, placesFrom_nil]
  | n + 1, pre, c :: p, k, h => by
    rw [placesFrom_cons]
    by_cases hc : (c == 58 && isBlank (hd p)) = true
    · rw [Bool.and_eq_true, beq_iff_eq] at hc
      obtain ⟨rfl, hb⟩ := hc
      cases p with
      | nil => exact absurd hb (by decide)
      | cons b q =>
        have hb' : isBlank b = true := hb
        have hlen : q.length < n := by simp only [List.length_cons] at h; omega
        rw [placesFrom_cons]
        have hnb : limboDecl (b :: q) = false := by
          rcases (isBlank_iff b).mp hb' with rfl | rfl
          · unfold limboDecl; split <;> simp_all
          · unfold limboDecl; split <;> simp_all
        have hcont : ([32, 9] : List Byte).contains b = true := by
          rcases (isBlank_iff b).mp hb' with rfl | rfl <;> rfl
        have w6 : (if starts q "module" then (rd q 6).map fun d => !isalnum d else some false) = some (wordHere "module" q) := by
          unfold wordHere
          cases hs : starts q "module" with
          | false => rw [if_neg (by decide)]; unfold starts at hs; rw [hs]; rfl
          | true => rw [if_pos rfl, rd_at (by decide) hs]; unfold starts at hs; rw [hs]; rfl
        have w3 : (if starts q "adt" then (rd q 3).map fun d => !isalnum d else some false) = some (wordHere "adt" q) := by
          unfold wordHere
          cases hs : starts q "adt" with
          | false => rw [if_neg (by decide)]; unfold starts at hs; rw [hs]; rfl
          | true => rw [if_pos rfl, rd_at (by decide) hs]; unfold starts at hs; rw [hs]; rfl
        have wf : (if starts q "fn" then (rd q 2).bind fun d =>
              if d == 32 then (rd q 3).map fun e => e == 40 else some (d == 40)
            else some false) = some (starts q "fn (" || starts q "fn(") := by
          cases hs : starts q "fn" with
          | false =>
            rw [if_neg (by decide)]
            have n : ∀ s : String, bs "fn" <+: bs s → starts q s = false := by
              intro s hp
              cases h' : starts q s with
              | false => rfl
              | true => rw [(starts_iff q "fn").mpr (hp.trans ((starts_iff q s).mp h'))] at hs; cases hs
            rw [n "fn (" ⟨bs " (", by decide⟩, n "fn(" ⟨bs "(", by decide⟩]; rfl
          | true =>
            have hq := starts_split hs
            rw [show (bs "fn").length = 2 by decide, show bs "fn" = [102, 110] by decide] at hq
            generalize q.drop 2 = t at hq
            subst hq
            rw [if_pos rfl, show rd ([102, 110] ++ t) 2 = some (hd t) from rd_append [102, 110] t, Option.bind_some]
            unfold starts
            rw [show bs "fn (" = [102, 110, 32, 40] by decide, show bs "fn(" = [102, 110, 40] by decide]
            cases t with
            | nil => rfl
            | cons d t =>
              by_cases hd32 : d = 32
              · subst hd32
                rw [show hd (32 :: t) = 32 from rfl, if_pos (by decide), show rd ([102, 110] ++ 32 :: t) 3 = some (hd t) from rd_append [102, 110, 32] t]
                cases t with
                | nil => rfl
                | cons e t => simp [hd, List.isPrefixOf, Bool.beq_comm]
              · rw [show hd (d :: t) = d from rfl, if_neg (by simpa using hd32)]
                have : (32 == d) = false := by simpa using fun e : 32 = d => hd32 e.symm
                simp [List.isPrefixOf, this, Bool.beq_comm]
        have wc : (if starts q "con" then (rd q 3).map isBlank else some false) = some (starts q "con " || starts q "con\t") := by
          cases hs : starts q "con" with
          | false =>
            rw [if_neg (by decide)]
            have n : ∀ s : String, bs "con" <+: bs s → starts q s = false := by
              intro s hp
              cases h' : starts q s with
              | false => rfl
              | true => rw [(starts_iff q "con").mpr (hp.trans ((starts_iff q s).mp h'))] at hs; cases hs
            rw [n "con " ⟨bs " ", by decide⟩, n "con\t" ⟨bs "\t", by decide⟩]; rfl
          | true =>
            have hq := starts_split hs
            rw [show (bs "con").length = 3 by decide, show bs "con" = [99, 111, 110] by decide] at hq
            generalize q.drop 3 = t at hq
            subst hq
            rw [if_pos rfl, show rd ([99, 111, 110] ++ t) 3 = some (hd t) from rd_append [99, 111, 110] t]
            unfold starts
            rw [show bs "con " = [99, 111, 110, 32] by decide, show bs "con\t" = [99, 111, 110, 9] by decide]
            cases t with
            | nil => rfl
            | cons d t => simp [hd, List.isPrefixOf, isBlank, Bool.beq_comm]
        have hdecl : limboDecl (58 :: b :: q) = (wordHere "module" q || wordHere "adt" q || (starts q "fn (" || starts q "fn(") ||
            (starts q "con " || starts q "con\t")) := by
          show ([32, 9].contains b && _) = _
          rw [hcont, Bool.true_and]
          simp only [List.any_cons, List.any_nil, Bool.or_false, starts, Bool.or_assoc]
        rw [mLimbo_cons, if_pos (show ((58 : Byte) == 58 && isBlank (hd (b :: q))) = true from hb')]
        simp only [List.drop_succ_cons, List.drop_zero]
        rw [w6, Option.bind_some, w3, Option.bind_some, wf, Option.bind_some, wc, Option.bind_some,
          mLimbo_eq n (pre ++ [58] ++ [b]) q _ hlen]
        show _ = some (k + ((if limboDecl (58 :: b :: q) = true then 1 else 0) + ((if limboDecl (b :: q) = true then 1 else 0) + _)))
        rw [hnb, hdecl]
        generalize (wordHere "module" q || wordHere "adt" q || (starts q "fn (" || starts q "fn(") || (starts q "con " || starts q "con\t")) = z
        cases z <;> simp <;> omega
    · have hdecl : limboDecl (c :: p) = false := by
        cases p with
        | nil => unfold limboDecl; split <;> simp_all
        | cons b q =>
          cases h' : limboDecl (c :: b :: q) with
          | false => rfl
          | true =>
            exfalso
            unfold limboDecl at h'
            split at h'
            · rename_i b' t' heq
              cases heq
              rw [Bool.and_eq_true] at h'
              apply hc
              have := h'.1
              simp only [List.contains_cons, List.contains_nil, Bool.or_false] at this
              simpa [hd, isBlank] using this
            · cases h'
      rw [mLimbo_cons, if_neg hc, mLimbo_eq n (pre ++ [c]) p k (by simp only [List.length_cons] at h; omega), hdecl]
      simp


theorem mMath_cons (n : Nat) (c : Byte) (p : Bytes) (k : Nat) : mMath (n + 1) (c :: p) k =
    match (if c == 38 then p.dropWhile isBlank else c :: p) with
    | [] => some (if c == 38 && (hd (if c == 38 then p.dropWhile isBlank else c :: p) == 44 ||
        hd (if c == 38 then p.dropWhile isBlank else c :: p) == 41 || hd (if c == 38 then p.dropWhile isBlank else c :: p) == 93) then k + 1 else k)
    | d :: q' =>
      let n' := if c == 38 && (hd (if c == 38 then p.dropWhile isBlank else c :: p) == 44 ||
        hd (if c == 38 then p.dropWhile isBlank else c :: p) == 41 || hd (if c == 38 then p.dropWhile isBlank else c :: p) == 93) then k + 1 else k
      let n' := if d == 40 && hd q' == 42 then n' + 1 else n'
      let n' := if d == 47 && hd q' == 46 then n' + 1 else n'
      let n' := if d == 95 && hd q' == 95 then n' + 1 else n'
      let n' := if d == 64 && hd q' == 64 then n' + 1 else n'
      mMath n q' n' := rfl

/-- The marks of two bytes. -/
def pairMark (x : Bytes) : Bool := ["(*", "/.", "__", "@@"].any fun w => (bs w).isPrefixOf x

theorem pair_prefix (a b d : Byte) (ha : b ≠ 0) (q : Bytes) : [a, b].isPrefixOf (d :: q) = (d == a && hd q == b) := by
  cases q with
  | nil => simp [List.isPrefixOf, hd]; intro _ h; exact ha h.symm
  | cons e q => simp [List.isPrefixOf, hd, Bool.beq_comm]

theorem pairMark_cons (d : Byte) (q : Bytes) : pairMark (d :: q) =
    (d == 40 && hd q == 42 || d == 47 && hd q == 46 || d == 95 && hd q == 95 || d == 64 && hd q == 64) := by
  unfold pairMark
  simp only [List.any_cons, List.any_nil, Bool.or_false]
  rw [show bs "(*" = [40, 42] by decide, show bs "/." = [47, 46] by decide, show bs "__" = [95, 95] by decide,
    show bs "@@" = [64, 64] by decide, pair_prefix _ _ _ (by decide), pair_prefix _ _ _ (by decide), pair_prefix _ _ _ (by decide),
    pair_prefix _ _ _ (by decide)]
  simp only [Bool.or_assoc]

theorem pair_steps (d : Byte) (q : Bytes) (k : Nat) :
    (let n' := if d == 40 && hd q == 42 then k + 1 else k
     let n' := if d == 47 && hd q == 46 then n' + 1 else n'
     let n' := if d == 95 && hd q == 95 then n' + 1 else n'
     if d == 64 && hd q == 64 then n' + 1 else n') = k + if pairMark (d :: q) then 1 else 0 := by
  rw [pairMark_cons]
  dsimp only
  by_cases h1 : d = 40
  · subst h1; simp; split <;> rfl
  by_cases h2 : d = 47
  · subst h2; simp; split <;> rfl
  by_cases h3 : d = 95
  · subst h3; simp; split <;> rfl
  by_cases h4 : d = 64
  · subst h4; simp; split <;> rfl
  simp [h1, h2, h3, h4]

theorem mathMark_eq (pre x : Bytes) : mathMark pre x = (pairMark x ||
    ((bs "&").isPrefixOf x && !waits 38 pre && [44, 41, 93].contains ((skipBlanks (x.drop 1)).headD 0))) := rfl

theorem mathMark_plain {pre : Bytes} {c : Byte} {p : Bytes} (h : c ≠ 38) : mathMark pre (c :: p) = pairMark (c :: p) := by
  rw [mathMark_eq, show bs "&" = [38] by decide]
  have : (38 == c) = false := by simpa using fun e : 38 = c => h e.symm
  simp [List.isPrefixOf, this]

theorem mathMark_blank {pre : Bytes} {c : Byte} {p : Bytes} (h : isBlank c = true) : mathMark pre (c :: p) = false := by
  rcases (isBlank_iff c).mp h with rfl | rfl
  · rw [mathMark_plain (by decide), pairMark_cons]; rfl
  · rw [mathMark_plain (by decide), pairMark_cons]; rfl

theorem placesFrom_blanks : ∀ (b pre q : Bytes), (∀ x ∈ b, isBlank x = true) →
    placesFrom mathMark pre (b ++ q) = placesFrom mathMark (pre ++ b) q
  | [], pre, q, _ => by simp
  | c :: b, pre, q, h => by
    rw [List.cons_append, placesFrom_cons, mathMark_blank (h c (by simp)), placesFrom_blanks b _ q (fun x hx => h x (by simp [hx]))]
    simp

theorem mMath_eq : ∀ (n : Nat) (pre p : Bytes) (k : Nat), p.length < n → waits 38 pre = false →
    mMath n p k = some (k + placesFrom mathMark pre p)
  | 0, _, _, _, h, _ => by omega
  | n + 1, pre, [], k, _, _ => by simp [mMath, placesFrom_nil]
  | n + 1, pre, c :: p, k, h, hw => by
    rw [mMath_cons]
    by_cases hc : c = 38
    · subst hc
      obtain ⟨hp, hb⟩ := blanks_split p
      generalize p.takeWhile isBlank = b at hp hb
      rw [show p.dropWhile isBlank = skipBlanks p from rfl] at hp
      have hrest : ∀ d, (skipBlanks p).head? = some d → isBlank d = false := by
        intro d hd'
        have hh := List.head?_dropWhile_not isBlank p
        rw [show p.dropWhile isBlank = skipBlanks p from rfl, hd'] at hh
        simpa using hh
      have hlen := congrArg List.length hp
      rw [List.length_append] at hlen
      simp only [List.length_cons] at h
      have hm : mathMark pre (38 :: p) = (hd (skipBlanks p) == 44 || hd (skipBlanks p) == 41 || hd (skipBlanks p) == 93) := by
        rw [mathMark_eq, hw, pairMark_cons, show bs "&" = [38] by decide]
        simp [List.isPrefixOf, hd, Bool.or_assoc]
        rfl
      have hcount : placesFrom mathMark pre (38 :: p) =
          (if (hd (skipBlanks p) == 44 || hd (skipBlanks p) == 41 || hd (skipBlanks p) == 93) then 1 else 0) +
            placesFrom mathMark (pre ++ [38] ++ b) (skipBlanks p) := by
        rw [placesFrom_cons, hm, ← placesFrom_blanks b _ _ (fun x hx => (isBlank_iff x).mpr (hb x hx)), ← hp]
      have hwait : waits 38 (pre ++ [38] ++ b) = true := by
        rw [waits_blanks 38 (by decide) _ _ hb, waits_snoc]; simp [hw]
      rw [hcount]
      simp only [show ((38 : Byte) == 38) = true from rfl, if_true, Bool.true_and]
      rw [show p.dropWhile isBlank = skipBlanks p from rfl]
      generalize (skipBlanks p) = q at *
      cases q with
      | nil => simp [placesFrom_nil]; rfl
      | cons d q =>
        dsimp only
        have hdb : isBlank d = false := hrest d rfl
        have hd' : waits 38 (pre ++ [38] ++ b ++ [d]) = false := by
          rw [waits_snoc, hwait]
          have : ¬ (d = 32 ∨ d = 9) := fun e => by rw [(isBlank_iff d).mpr e] at hdb; cases hdb
          rw [if_neg this]; simp
        have hmd : mathMark (pre ++ [38] ++ b) (d :: q) = pairMark (d :: q) := by
          rw [mathMark_eq, hwait]; simp
        rw [show ∀ x, mMath n q x = some (x + placesFrom mathMark (pre ++ [38] ++ b ++ [d]) q) from
          fun x => mMath_eq n _ q x (by simp only [List.length_cons] at hlen; omega) hd']
        rw [placesFrom_cons, hmd]
        have := pair_steps d q (if (hd (d :: q) == 44 || hd (d :: q) == 41 || hd (d :: q) == 93) then k + 1 else k)
        dsimp only at this
        rw [this]
        congr 1
        generalize (hd (d :: q) == 44 || hd (d :: q) == 41 || hd (d :: q) == 93) = z
        cases z <;> simp <;> omega
    · have hc' : (c == 38) = false := by simpa using hc
      simp only [hc', Bool.false_and, Bool.false_eq_true, if_false]
      have hd' : waits 38 (pre ++ [c]) = false := by rw [waits_snoc, hw]; simp [hc]
      rw [show ∀ x, mMath n p x = some (x + placesFrom mathMark (pre ++ [c]) p) from
        fun x => mMath_eq n _ p x (by simp only [List.length_cons] at h; omega) hd']
      rw [placesFrom_cons, mathMark_plain hc]
      have := pair_steps c p k
      dsimp only at this
      rw [this]
      congr 1
      omega


/-! ### Words of Octave -/

def runByte (b : Byte) : Bool := islower b || b == 95

theorem octaveWords_run : ∀ w ∈ octaveWords, w ≠ [] ∧ islower (w.headD 0) = true ∧ ∀ b ∈ w, runByte b = true := by decide +kernel

def OctaveFrom (pre p : Bytes) : Prop :=
  ∃ w ∈ octaveWords, ∃ a b, p = a ++ w ++ b ∧ WordMayStart (pre ++ a) ∧ ¬ InWord (pre ++ a) ∧ wordChar (b.headD 0) = false

theorem octaveFrom_nil (pre : Bytes) : ¬ OctaveFrom pre [] := by
  rintro ⟨w, hw, a, b, he, _⟩
  have := congrArg List.length he
  have hwl := List.length_pos_iff.mpr (octaveWords_run w hw).1
  simp at this; omega

theorem runByte_iff (b : Byte) : runByte b = true ↔ islower b = true ∨ b = 95 := by simp [runByte]

/-- Nothing starts here. -/
theorem octaveFrom_skip {pre : Bytes} {c : Byte} {p : Bytes} (h : ¬ (islower c = true ∧ WordMayStart pre)) :
    OctaveFrom pre (c :: p) ↔ OctaveFrom (pre ++ [c]) p := by
  constructor
  · rintro ⟨w, hw, a, b, he, h1, h2, h3⟩
    cases a with
    | nil =>
      obtain ⟨hne, hl, _⟩ := octaveWords_run w hw
      cases w with
      | nil => exact absurd rfl hne
      | cons x w =>
        simp only [List.nil_append, List.cons_append, List.cons.injEq] at he
        obtain ⟨rfl, _⟩ := he
        exact absurd ⟨hl, by simpa using h1⟩ h
    | cons x a =>
      simp only [List.cons_append, List.cons.injEq] at he
      obtain ⟨rfl, he⟩ := he
      exact ⟨w, hw, a, b, he, by simpa using h1, by simpa using h2, h3⟩
  · rintro ⟨w, hw, a, b, rfl, h1, h2, h3⟩
    exact ⟨w, hw, c :: a, b, by simp, by simpa using h1, by simpa using h2, h3⟩

theorem inWord_skip {pre : Bytes} {c : Byte} (hn : ¬ InWord pre) (h : ¬ (islower c = true ∧ WordMayStart pre)) : ¬ InWord (pre ++ [c]) := by
  rintro ⟨a1, x, a2, he, h1, h2, h3⟩
  rcases List.eq_nil_or_concat a2 with rfl | ⟨a3, y, rfl⟩
  · have := List.append_inj' he rfl
    obtain ⟨rfl, e⟩ := this
    cases e
    exact h ⟨h2, h1⟩
  · have he' : pre ++ [c] = (a1 ++ x :: a3) ++ [y] := by rw [he]; simp
    obtain ⟨rfl, e⟩ := List.append_inj' he' rfl
    exact hn ⟨a1, x, a3, rfl, h1, h2, fun b hb => h3 b (by simp [hb])⟩

theorem inWord_end {pre : Bytes} {d : Byte} (h : runByte d = false) : ¬ InWord (pre ++ [d]) := by
  rintro ⟨a1, x, a2, he, _, h2, h3⟩
  have hd' : ¬ (islower d = true ∨ d = 95) := fun e => by rw [(runByte_iff d).mpr e] at h; cases h
  rcases List.eq_nil_or_concat a2 with rfl | ⟨a3, y, rfl⟩
  · have := (List.append_inj' he rfl).2
    cases this
    exact hd' (.inl h2)
  · have he' : pre ++ [d] = (a1 ++ x :: a3) ++ [y] := by rw [he]; simp
    have := (List.append_inj' he' rfl).2
    cases this
    exact hd' (h3 d (by simp))

/-- A run of small letters and underscores that starts as a word. -/
theorem octaveFrom_run {pre run rest : Bytes} {c : Byte} {t : Bytes} (hrun : run = c :: t) (hc : islower c = true) (hs : WordMayStart pre) (hn : ¬ InWord pre)
    (hr : ∀ b ∈ run, runByte b = true) (hrest : ∀ d, rest.head? = some d → runByte d = false) :
    OctaveFrom pre (run ++ rest) ↔ (run ∈ octaveWords ∧ wordChar (rest.headD 0) = false) ∨
      OctaveFrom (pre ++ run ++ [rest.headD 0]) (rest.drop 1) := by
  have inside : ∀ a, a ≠ [] → a <+: run → InWord (pre ++ a) := by
    intro a ha hp
    cases a with
    | nil => exact absurd rfl ha
    | cons x a =>
      rw [hrun, List.cons_prefix_cons] at hp
      obtain ⟨rfl, hp⟩ := hp
      exact ⟨pre, x, a, rfl, hs, hc, fun b hb => (runByte_iff b).mp (hr b (by rw [hrun]; exact .tail _ (hp.subset hb)))⟩
  constructor
  · rintro ⟨w, hw, a, b, he, h1, h2, h3⟩
    obtain ⟨hne, hl, hwr⟩ := octaveWords_run w hw
    by_cases ha : a = []
    · subst ha
      simp only [List.nil_append] at he
      left
      have hb0 : runByte (b.headD 0) = false := by
        cases hz : runByte (b.headD 0) with
        | false => rfl
        | true =>
          rcases (runByte_iff _).mp hz with e | e
          · have : isalnum (b.headD 0) = true := by
              simp only [isalnum, e, Bool.or_true, Bool.true_or]
            unfold wordChar at h3; rw [this] at h3; cases h3
          · rw [e] at h3; exact absurd h3 (by decide)
      rcases List.append_eq_append_iff.mp he with ⟨u, hu1, hu2⟩ | ⟨u, hu1, hu2⟩
      · -- w = run ++ u, rest = u ++ b
        cases u with
        | nil => simp only [List.append_nil, List.nil_append] at hu1 hu2; subst hu1; subst hu2; exact ⟨hw, h3⟩
        | cons y u =>
          have := hrest y (by rw [hu2]; rfl)
          rw [hwr y (by rw [hu1]; simp)] at this; cases this
      · cases u with
        | nil => simp only [List.append_nil, List.nil_append] at hu1 hu2; subst hu1; subst hu2; exact ⟨hw, h3⟩
        | cons y u =>
          rw [hu2] at hb0
          have := hr y (by rw [hu1]; simp)
          simp only [List.cons_append, List.headD_cons] at hb0
          rw [this] at hb0; cases hb0
    · right
      rw [List.append_assoc] at he
      rcases List.append_eq_append_iff.mp he with ⟨u, hu1, hu2⟩ | ⟨u, hu1, hu2⟩
      · cases u with
        | nil =>
          simp only [List.append_nil] at hu1
          exact absurd (inside a ha (by rw [hu1]; exact List.prefix_refl _)) h2
        | cons d u =>
          subst hu1
          rw [hu2]
          refine ⟨w, hw, u, b, by simp, ?_, ?_, h3⟩
          · simpa using h1
          · simpa using h2
      · exact absurd (inside a ha ⟨u, hu1.symm⟩) h2
  · rintro (⟨hw, h3⟩ | h)
    · exact ⟨run, hw, [], rest, by simp, by simpa using hs, by simpa using hn, h3⟩
    · cases rest with
      | nil => exact absurd h (octaveFrom_nil _)
      | cons d rest =>
        obtain ⟨w, hw, a, b, he, h1, h2, h3⟩ := h
        simp only [List.drop_succ_cons, List.drop_zero] at he
        exact ⟨w, hw, run ++ d :: a, b, by rw [he]; simp, by simpa using h1, by simpa using h2, h3⟩

theorem wordMayStart_iff (pre : Bytes) :
    WordMayStart pre ↔ (match pre.getLast? with | some pr => !isalnum pr | none => false) = true := by
  unfold WordMayStart
  cases pre.getLast? <;> simp

theorem mOctave_cons (st : Stack) (n : Nat) (prev : Option Byte) (c : Byte) (p : Bytes) (o : Bool) : mOctave st (n + 1) prev (c :: p) o =
    if islower c && (match prev with | some pr => !isalnum pr | none => false) then
      if !isalnum (hd ((c :: p).dropWhile runByte)) then
        (copyBuf st ((c :: p).takeWhile runByte)).bind fun buf =>
          mOctave st n (some (hd ((c :: p).dropWhile runByte))) (((c :: p).dropWhile runByte).drop 1)
            (o || (buf == bs "end_try_catch" || buf == bs "end_unwind_protect" || buf == bs "endfunction" || buf == bs "endwhile"))
      else mOctave st n (some (hd ((c :: p).dropWhile runByte))) (((c :: p).dropWhile runByte).drop 1) o
    else mOctave st n (some c) p o := rfl

theorem mOctave_iff (st : Stack) (hp : st.pad = true) : ∀ (n : Nat) (pre p : Bytes) (o : Bool), p.length < n → ¬ InWord pre →
    ∃ r, mOctave st n pre.getLast? p o = some r ∧ (r = true ↔ o = true ∨ OctaveFrom pre p)
  | 0, _, _, _, h, _ => by omega
  | n + 1, pre, [], o, _, _ => ⟨o, rfl, by simp [octaveFrom_nil]⟩
  | n + 1, pre, c :: p, o, h, hn => by
    rw [mOctave_cons]
    by_cases hc : (islower c && (match pre.getLast? with | some pr => !isalnum pr | none => false)) = true
    · rw [if_pos hc]
      rw [Bool.and_eq_true, ← wordMayStart_iff] at hc
      have er := List.takeWhile_append_dropWhile (p := runByte) (l := c :: p)
      have hrest : ∀ b, ((c :: p).dropWhile runByte).head? = some b → runByte b = false := by
        intro b hb
        have hh := List.head?_dropWhile_not runByte (c :: p)
        rw [hb] at hh
        simpa using hh
      have hrc : runByte c = true := (runByte_iff c).mpr (.inl hc.1)
      have hrun : (c :: p).takeWhile runByte = c :: p.takeWhile runByte := by rw [List.takeWhile_cons, if_pos hrc]
      have hlen : (((c :: p).dropWhile runByte).drop 1).length < n := by
        have h1 := congrArg List.length er
        rw [List.length_append, hrun] at h1
        simp only [List.length_cons] at h h1
        rw [List.length_drop]; omega
      have key := octaveFrom_run (rest := (c :: p).dropWhile runByte) hrun hc.1 hc.2 hn mem_takeWhile hrest
      rw [er] at key
      generalize (c :: p).takeWhile runByte = run at *
      generalize (c :: p).dropWhile runByte = rest at *
      have next : ∀ o', ∃ r, mOctave st n (some (hd rest)) (rest.drop 1) o' = some r ∧
          (r = true ↔ o' = true ∨ OctaveFrom (pre ++ run ++ [rest.headD 0]) (rest.drop 1)) := by
        intro o'
        have hz : ¬ InWord (pre ++ run ++ [rest.headD 0]) := by
          apply inWord_end
          cases rest with
          | nil => decide
          | cons d rest => exact hrest d rfl
        have := mOctave_iff st hp n (pre ++ run ++ [rest.headD 0]) (rest.drop 1) o' hlen hz
        rwa [List.getLast?_concat] at this
      have hdrest : runByte (hd rest) = false := by
        cases rest with
        | nil => decide
        | cons d rest => exact hrest d rfl
      by_cases ha : (!isalnum (hd rest)) = true
      · rw [if_pos ha]
        have hw : wordChar (rest.headD 0) = false := by
          have h95 : hd rest ≠ 95 := fun e => by rw [e] at hdrest; exact absurd hdrest (by decide)
          simp only [wordChar, Bool.or_eq_false_iff]
          refine ⟨by rw [← show hd rest = rest.headD 0 from rfl]; simpa using ha, ?_⟩
          rw [← show hd rest = rest.headD 0 from rfl]; simpa using h95
        simp only [copyBuf, hp, or_true, if_true, Option.bind_some]
        have hk : (run == bs "end_try_catch" || run == bs "end_unwind_protect" || run == bs "endfunction" || run == bs "endwhile") = true ↔ run ∈ octaveWords := by
          simp [octaveWords, or_assoc]
        obtain ⟨r, h1, h2⟩ := next (o || (run == bs "end_try_catch" || run == bs "end_unwind_protect" || run == bs "endfunction" || run == bs "endwhile"))
        refine ⟨r, h1, h2.trans ?_⟩
        rw [key, Bool.or_eq_true, hk]
        constructor
        · rintro ((e | e) | e)
          · exact .inl e
          · exact .inr (.inl ⟨e, hw⟩)
          · exact .inr (.inr e)
        · rintro (e | (⟨e, _⟩ | e))
          · exact .inl (.inl e)
          · exact .inl (.inr e)
          · exact .inr e
      · rw [if_neg ha]
        obtain ⟨r, h1, h2⟩ := next o
        refine ⟨r, h1, h2.trans ?_⟩
        rw [key]
        constructor
        · rintro (e | e)
          · exact .inl e
          · exact .inr (.inr e)
        · rintro (e | (⟨_, e⟩ | e))
          · exact .inl e
          · simp only [wordChar, Bool.or_eq_false_iff] at e
            exact absurd (by rw [show hd rest = rest.headD 0 from rfl, e.1]; rfl) ha
          · exact .inr e
    · rw [if_neg hc]
      have hc' : ¬ (islower c = true ∧ WordMayStart pre) := by
        rw [wordMayStart_iff, ← Bool.and_eq_true]; exact hc
      have := mOctave_iff st hp n (pre ++ [c]) p o (by simp only [List.length_cons] at h; omega) (inWord_skip hn hc')
      rw [List.getLast?_concat] at this
      obtain ⟨r, h1, h2⟩ := this
      exact ⟨r, h1, h2.trans (by rw [octaveFrom_skip hc'])⟩

/-! ### Lines -/

theorem pfx1 (c : Byte) (x : Bytes) : (bs "%").isPrefixOf (c :: x) = (37 == c) := Bool.and_true _
theorem pfx2 (c : Byte) (x : Bytes) : (bs "#").isPrefixOf (c :: x) = (35 == c) := Bool.and_true _
theorem pfx3 (c : Byte) (x : Bytes) : (bs "function").isPrefixOf (c :: x) = (102 == c && (bs "unction").isPrefixOf x) := rfl
theorem pfx4 (c : Byte) (x : Bytes) : (bs "#import").isPrefixOf (c :: x) = (35 == c && (bs "import").isPrefixOf x) := rfl
theorem pfx5 (c : Byte) (x : Bytes) : (bs "//").isPrefixOf (c :: x) = (47 == c && hd x == 47) := by
  show (_ && _) = _
  cases x with
  | nil => rfl
  | cons d x => show (_ && ((47 == d) && true)) = _; rw [Bool.and_true, Bool.beq_comm (a := 47) (b := d)]; rfl
theorem pfx6 (c : Byte) (x : Bytes) : (bs "/*").isPrefixOf (c :: x) = (47 == c && hd x == 42) := by
  show (_ && _) = _
  cases x with
  | nil => rfl
  | cons d x => show (_ && ((42 == d) && true)) = _; rw [Bool.and_true, Bool.beq_comm (a := 42) (b := d)]; rfl
theorem pfx7 (c : Byte) (x : Bytes) : (bs "+").isPrefixOf (c :: x) = (43 == c) := Bool.and_true _
theorem pfx8 (c : Byte) (x : Bytes) : (bs "-").isPrefixOf (c :: x) = (45 == c) := Bool.and_true _
theorem pfx9 (c : Byte) (x : Bytes) : (bs "@implementation").isPrefixOf (c :: x) = (64 == c && (bs "implementation").isPrefixOf x) := rfl
theorem pfx10 (c : Byte) (x : Bytes) : (bs "@interface").isPrefixOf (c :: x) = (64 == c && (bs "interface").isPrefixOf x) := rfl
theorem pfx11 (c : Byte) (x : Bytes) : (bs "include").isPrefixOf (c :: x) = (105 == c && (bs "nclude").isPrefixOf x) := rfl

/-- What stands before the quote is a blank, never the end of a file name. -/
theorem include_never (y : Bytes) (hb : isBlank ((y.drop 7).headD 0) = true)
    (h : (y.take (y.length - ((y.drop 7).dropWhile isBlank).length))[(y.take (y.length - ((y.drop 7).dropWhile isBlank).length)).length - 1]? = some 109) :
    False := by
  have hy := List.take_append_drop 7 y
  generalize y.take 7 = a at hy
  generalize y.drop 7 = q at *
  subst hy
  obtain ⟨hq, hbl⟩ := blanks_split q
  have hne : q.takeWhile isBlank ≠ [] := by
    cases q with
    | nil => exact absurd hb (by decide)
    | cons d q => rw [List.takeWhile_cons, if_pos (show isBlank d = true from hb)]; simp
  generalize q.takeWhile isBlank = w at *
  generalize q.dropWhile isBlank = r at *
  subst hq
  rw [show (a ++ (w ++ r)).length - r.length = (a ++ w).length by simp; omega, ← List.append_assoc, List.take_left,
    ← List.getLast?_eq_getElem?, List.getLast?_append] at h
  rcases List.eq_nil_or_concat w with rfl | ⟨w', z, rfl⟩
  · exact hne rfl
  · rw [List.concat_eq_append, List.getLast?_concat] at h
    simp only [Option.some_or, Option.some.injEq] at h
    subst h
    exact absurd (hbl 109 (by simp)) (by decide)

theorem mTelltale_eq (l : Bytes) (s : MScores) : mTelltale l s = some { s with
    limbo := s.limbo + (if hashComment (skipBlanks l) then 1 else 0)
    matlab := s.matlab + matlabPoints l
    objectiveC := s.objectiveC + objcPoints l
    octave := s.octave || hashComment (skipBlanks l) } := by
  unfold mTelltale matlabPoints objcPoints matlabLine objcLine hashComment functionLine
  rw [show l.dropWhile isBlank = skipBlanks l from rfl]
  generalize skipBlanks l = x
  cases x with
  | nil => simp [hd, starts, bs, List.isPrefixOf]
  | cons c x =>
    simp only [starts, List.any_cons, List.any_nil, Bool.or_false, pfx1, pfx2, pfx3, pfx4, pfx5, pfx6, pfx7, pfx8, pfx9, pfx10, pfx11, hd, List.headD_cons]
    by_cases h1 : c = 37
    · subst h1; simp
    by_cases h2 : c = 35
    · subst h2
      by_cases hi : bs "import" <+: x
      · have : ∃ t, x = 105 :: t := by
          obtain ⟨t, rfl⟩ := hi
          exact ⟨_, rfl⟩
        obtain ⟨t, rfl⟩ := this
        simp [List.dropWhile, hi]
      · have e : ∀ y : Bytes, (y.head?.getD 0 = 32 ∨ y.head?.getD 0 = 9) ↔ isBlank (y.head?.getD 0) = true := by simp [isBlank]
        simp [hi, e]
        generalize isBlank _ = z
        cases z <;> simp
    by_cases h3 : c = 47
    · subst h3
      have : rd (47 :: x) 1 = some (hd x) := rd_append [47] x
      rw [this]
      simp [hd]
      split <;> simp_all
    have g1 : ∀ k : Byte, c ≠ k → (k == c) = false := fun k h => by simpa using fun e : k = c => h e.symm
    have g2 : ∀ k : Byte, c ≠ k → (c == k) = false := fun k h => by simpa using h
    simp only [g1 37 h1, g2 37 h1, g1 35 h2, g2 35 h2, g1 47 h3, g2 47 h3, Bool.false_and, Bool.false_or, Bool.false_eq_true, if_false, Option.bind_some]
    by_cases h4 : c = 43 ∨ c = 45
    · rcases h4 with rfl | rfl <;> simp
    have h4' : c ≠ 43 ∧ c ≠ 45 := ⟨fun e => h4 (.inl e), fun e => h4 (.inr e)⟩
    by_cases h5 : c = 64
    · subst h5
      simp
      split <;> simp_all
    simp only [g1 43 h4'.1, g2 43 h4'.1, g1 45 h4'.2, g2 45 h4'.2, g1 64 h5, g2 64 h5, Bool.false_and, Bool.false_or, Bool.false_eq_true, if_false]
    by_cases h6 : c = 102
    · subst h6
      simp only [beq_self_eq_true, Bool.true_and, show ((105 : Byte) == 102) = false from rfl, Bool.false_and, Bool.false_eq_true, if_false]
      cases (bs "unction").isPrefixOf x with
      | false => simp
      | true =>
        simp only [if_true, Bool.true_and]
        rw [show ((102 :: x).drop 8).dropWhile isBlank = skipBlanks ((102 :: x).drop 8) from rfl]
        split <;> simp_all
    simp only [g1 102 h6, Bool.false_and, Bool.false_eq_true, if_false]
    -- the rule for "include": the byte before the quote is a blank
    have plain : some s = some { s with limbo := s.limbo + 0, matlab := s.matlab + 0, objectiveC := s.objectiveC + 0, octave := s.octave || false } := by simp
    rw [← plain]
    by_cases hinc : (105 == c && (bs "nclude").isPrefixOf x) = true
    · simp only [hinc, if_true]
      by_cases hb : isBlank (((c :: x).drop 7).headD 0) = true
      · simp only [hb, if_true]
        by_cases hq : ((((c :: x).drop 7).dropWhile isBlank).headD 0 == 34) = true
        · simp only [hq, if_true]
          rw [if_neg]
          intro h
          rw [Bool.and_eq_true] at h
          exact include_never (c :: x) hb (beq_iff_eq.mp h.2)
        · simp only [hq, if_false, Bool.false_eq_true]
      · simp only [hb, if_false, Bool.false_eq_true]
    · simp only [hinc, if_false, Bool.false_eq_true]

theorem suffix4 {f : Bytes} (a b c d : Byte) (hl : 4 ≤ f.length) :
    (∃ s, f = s ++ [a, b, c, d]) ↔ (f[f.length - 4]?).getD 0 = a ∧ (f[f.length - 3]?).getD 0 = b ∧ (f[f.length - 2]?).getD 0 = c ∧ (f[f.length - 1]?).getD 0 = d := by
  have hy := List.take_append_drop (f.length - 4) f
  have hlen : (f.drop (f.length - 4)).length = 4 := by rw [List.length_drop]; omega
  generalize f.take (f.length - 4) = u at hy
  generalize f.drop (f.length - 4) = v at hy hlen
  match v, hlen with
  | [p, q, r, t], _ =>
    subst hy
    have e : (u ++ [p, q, r, t]).length = u.length + 4 := by simp
    rw [e, show u.length + 4 - 4 = u.length by omega, show u.length + 4 - 3 = u.length + 1 by omega,
      show u.length + 4 - 2 = u.length + 2 by omega, show u.length + 4 - 1 = u.length + 3 by omega]
    simp only [List.getElem?_append_right (Nat.le_refl _), List.getElem?_append_right (Nat.le_add_right _ _), Nat.add_sub_cancel_left, Nat.sub_self]
    simp only [List.getElem?_cons_zero, List.getElem?_cons_succ, Option.getD_some]
    constructor
    · rintro ⟨s, hs⟩
      have := (List.append_inj' hs rfl).2
      simp only [List.cons.injEq] at this
      exact ⟨this.1, this.2.1, this.2.2.1, this.2.2.2.1⟩
    · rintro ⟨rfl, rfl, rfl, rfl⟩
      exact ⟨u, rfl⟩

theorem cname_long {f : Bytes} (hl : 4 ≤ f.length) : CName f ↔
    (((f[f.length - 4]?).getD 0 == 46 && (f[f.length - 3]?).getD 0 == 99 && (((f[f.length - 2]?).getD 0 == 112 && (f[f.length - 1]?).getD 0 == 112) ||
      ((f[f.length - 2]?).getD 0 == 43 && (f[f.length - 1]?).getD 0 == 43) || ((f[f.length - 2]?).getD 0 == 120 && (f[f.length - 1]?).getD 0 == 120))) = true) := by
  unfold CName
  have h2 : f ∉ [bs ".cc", bs ".c", bs ".C"] := by
    intro h
    simp only [List.mem_cons, List.not_mem_nil, or_false] at h
    rcases h with rfl | rfl | rfl <;> exact absurd hl (by decide)
  simp only [h2, or_false, List.mem_cons, List.not_mem_nil, exists_eq_or_imp, exists_eq_left]
  rw [show bs ".cpp" = [46, 99, 112, 112] by decide, show bs ".c++" = [46, 99, 43, 43] by decide, show bs ".cxx" = [46, 99, 120, 120] by decide,
    suffix4 _ _ _ _ hl, suffix4 _ _ _ _ hl, suffix4 _ _ _ _ hl]
  simp only [Bool.and_eq_true, Bool.or_eq_true, beq_iff_eq, and_or_left, and_assoc, or_assoc]

theorem cname_short {f : Bytes} (hl : f.length < 4) : CName f ↔ f ∈ [bs ".cc", bs ".c", bs ".C"] := by
  unfold CName
  constructor
  · rintro (⟨e, he, s, rfl⟩ | h)
    · exfalso
      have : ∀ e ∈ [bs ".cpp", bs ".c++", bs ".cxx"], e.length = 4 := by decide
      have := this e he
      simp only [List.length_append] at hl
      omega
    · exact h
  · exact .inr

theorem mContext_iff : ∀ (fs : List Bytes) (h : Bool), mContext fs h = true ↔ (h = true ∨ bs ".h" ∈ fs) ∧ ¬ ∃ f ∈ fs, CName f
  | [], h => by simp [mContext]
  | f :: fs, h => by
    have ex : (∃ g ∈ f :: fs, CName g) ↔ CName f ∨ ∃ g ∈ fs, CName g := by simp
    have skip : f ≠ bs ".h" → ¬ CName f → (mContext fs h = true ↔ (h = true ∨ bs ".h" ∈ f :: fs) ∧ ¬ ∃ g ∈ f :: fs, CName g) := by
      intro h1 h2
      rw [mContext_iff fs h, ex, List.mem_cons]
      have : ¬ (bs ".h" = f) := fun e => h1 e.symm
      simp [this, h2]
    have stop : CName f → (false = true ↔ (h = true ∨ bs ".h" ∈ f :: fs) ∧ ¬ ∃ g ∈ f :: fs, CName g) := by
      intro h2; rw [ex]; simp [h2]
    match f with
    | [] =>
      exact skip (by decide) (by rw [cname_short (by decide)]; decide)
    | [a] =>
      exact skip (fun e => by cases e) (by rw [cname_short (by simp)]; intro e; simp only [List.mem_cons, List.not_mem_nil, or_false] at e; rcases e with e | e | e <;> cases e)
    | [a, b] =>
      have hc : CName [a, b] ↔ a = 46 ∧ (b = 99 ∨ b = 67) := by
        rw [cname_short (by simp), show bs ".cc" = [46, 99, 99] by decide, show bs ".c" = [46, 99] by decide, show bs ".C" = [46, 67] by decide]
        simp [and_or_left]
      have hh : [a, b] = bs ".h" ↔ a = 46 ∧ b = 104 := by rw [show bs ".h" = [46, 104] by decide]; simp
      show (if a == 46 then if b == 104 then mContext fs true else if b == 99 || b == 67 then false else mContext fs h else mContext fs h) = true ↔ _
      by_cases ha : a = 46
      · subst ha
        rw [if_pos (by decide)]
        by_cases hb : b = 104
        · subst hb
          rw [if_pos (by decide), mContext_iff fs true, ex]
          have : ¬ CName [46, 104] := by rw [hc]; decide
          simp [this, show bs ".h" = [46, 104] by decide]
        · rw [if_neg (by simpa using hb)]
          by_cases hb2 : b = 99 ∨ b = 67
          · rw [if_pos (by simpa using hb2)]; exact stop (hc.mpr ⟨rfl, hb2⟩)
          · rw [if_neg (by simpa using hb2)]
            exact skip (fun e => hb (hh.mp e).2) (fun e => hb2 (hc.mp e).2)
      · rw [if_neg (by simpa using ha)]
        exact skip (fun e => ha (hh.mp e).1) (fun e => ha (hc.mp e).1)
    | [a, b, c] =>
      have hc : CName [a, b, c] ↔ (a == 46 && b == 99 && c == 99) = true := by
        rw [cname_short (by simp), show bs ".cc" = [46, 99, 99] by decide, show bs ".c" = [46, 99] by decide, show bs ".C" = [46, 67] by decide]
        simp [and_assoc]
      show (if a == 46 && b == 99 && c == 99 then false else mContext fs h) = true ↔ _
      by_cases hx : (a == 46 && b == 99 && c == 99) = true
      · rw [if_pos hx]; exact stop (hc.mpr hx)
      · rw [if_neg hx]; exact skip (fun e => by cases e) (fun e => hx (hc.mp e))
    | a :: b :: c :: d :: f =>
      have hl : 4 ≤ (a :: b :: c :: d :: f).length := by simp
      have hc := cname_long hl
      unfold mContext
      dsimp only
      rw [if_pos hl]
      generalize a :: b :: c :: d :: f = g at *
      by_cases hx : CName g
      · rw [if_pos (hc.mp hx)]; exact stop hx
      · rw [if_neg (fun e => hx (hc.mpr e))]
        exact skip (fun e => by rw [e] at hl; exact absurd hl (by decide)) hx

theorem mLine_eq (st : Stack) (hp : st.pad = true) (s : MScores) (l : Bytes) :
    ∃ o, mLine st s l = some (MScores.mk (s.mathematica + mathPoints l) (s.matlab + matlabPoints l)
      (s.objectiveC + objcPoints l) (s.limbo + limboPoints l) o) ∧
      (o = true ↔ s.octave = true ∨ hashComment (skipBlanks l) = true ∨ OctaveLine l) := by
  have h0 : ¬ InWord [] := by rintro ⟨a1, c, a2, he, _⟩; cases a1 <;> cases he
  obtain ⟨o, h1, h2⟩ := mOctave_iff st hp (l.length + 1) [] l (s.octave || hashComment (skipBlanks l)) (by omega) h0
  refine ⟨o, ?_, h2.trans ?_⟩
  · unfold mLine
    rw [mTelltale_eq, Option.bind_some]
    dsimp only
    rw [show mOctave st (l.length + 1) none l (s.octave || hashComment (skipBlanks l)) = some o from h1, Option.bind_some,
      mLimbo_eq _ [] l _ (by omega), Option.bind_some, mMath_eq _ [] l _ (by omega) rfl, Option.bind_some]
    simp only [limboPoints, mathPoints, places_eq, Nat.add_assoc]
  · rw [Bool.or_eq_true, or_assoc]; exact or_congr Iff.rfl (or_congr Iff.rfl (by simp [OctaveFrom, OctaveLine]))

def mStep (st : Stack) (s : MScores) (l : Bytes) : Option (Except (Option String) MScores) := (mLine st s l).map .ok

/-- The points of all lines of the text. -/
def allPoints (f : Bytes → Nat) (c : Bytes) : Nat := ((textLines c).map fun l => f (seen l)).sum

theorem m_overLines (st : Stack) (hp : st.pad = true) : ∀ (ls : List Bytes) (s : MScores),
    ∃ o, overLines (mStep st) ls s = some (.ok (MScores.mk (s.mathematica + (ls.map fun l => mathPoints (seen l)).sum)
      (s.matlab + (ls.map fun l => matlabPoints (seen l)).sum) (s.objectiveC + (ls.map fun l => objcPoints (seen l)).sum)
      (s.limbo + (ls.map fun l => limboPoints (seen l)).sum) o)) ∧
      (o = true ↔ s.octave = true ∨ ∃ l ∈ ls, hashComment (skipBlanks (seen l)) = true ∨ OctaveLine (seen l))
  | [], s => ⟨s.octave, by simp [overLines], by simp⟩
  | l :: ls, s => by
    obtain ⟨o, h1, h2⟩ := mLine_eq st hp s (seen l)
    obtain ⟨o', h3, h4⟩ := m_overLines st hp ls (MScores.mk (s.mathematica + mathPoints (seen l)) (s.matlab + matlabPoints (seen l))
      (s.objectiveC + objcPoints (seen l)) (s.limbo + limboPoints (seen l)) o)
    refine ⟨o', ?_, h4.trans ?_⟩
    · simp only [overLines, mStep, h1, Option.map_some, Option.bind_some, List.map_cons, List.sum_cons, ← Nat.add_assoc]
      exact h3
    · dsimp only
      rw [h2]; simp [or_assoc]

theorem m_eq (st : Stack) (i : Input) : m st i =
    (lineLoop st (mStep st) (i.text.length + 1) i.text { objectiveC := if mContext (i.filenames.getD []) false then 5 else 0 }).map fun r =>
      match r with
      | .error e => e
      | .ok s =>
        if s.limbo > s.objectiveC && s.limbo > s.matlab && s.limbo > s.mathematica then some "limbo"
        else if s.objectiveC > s.matlab && s.objectiveC > s.mathematica then some "objective_c"
        else if s.mathematica > s.matlab then some "mathematica"
        else if s.octave then some "octave" else some "matlab" := rfl

/-- C61, `.m`: points are counted line by line, five more for Objective C if the directory has a file ".h" and no C or C++ file. Limbo wins
with more points than each other language, then Objective C with more than Matlab and Mathematica, then Mathematica with more than Matlab.
What remains is Octave if some line has a comment of number signs or a word of Octave, and Matlab otherwise. -/
theorem C61_m (o : Oracles) (st : Stack) (hp : st.pad = true) (before : Byte) (stem c : Bytes) (disk : Option Bytes) (files : Option (List Bytes)) :
    let r := detect o st before (source before (stem ++ bs "." ++ bs "m") disk (some c) files)
    let limbo := allPoints limboPoints c
    let mathematica := allPoints mathPoints c
    let matlab := allPoints matlabPoints c
    let octave := ∃ l ∈ textLines c, hashComment (skipBlanks (seen l)) = true ∨ OctaveLine (seen l)
    ∃ objc, ((bs ".h" ∈ files.getD [] ∧ ¬ ∃ f ∈ files.getD [], CName f) → objc = allPoints objcPoints c + 5) ∧
      (¬ (bs ".h" ∈ files.getD [] ∧ ¬ ∃ f ∈ files.getD [], CName f) → objc = allPoints objcPoints c) ∧
      ((limbo > objc ∧ limbo > matlab ∧ limbo > mathematica) → r = some (some "limbo")) ∧
      (¬ (limbo > objc ∧ limbo > matlab ∧ limbo > mathematica) → objc > matlab → objc > mathematica → r = some (some "objective_c")) ∧
      (¬ (limbo > objc ∧ limbo > matlab ∧ limbo > mathematica) → ¬ (objc > matlab ∧ objc > mathematica) →
        (mathematica > matlab → r = some (some "mathematica")) ∧
        (mathematica ≤ matlab → (octave → r = some (some "octave")) ∧ (¬ octave → r = some (some "matlab")))) := by
  have h := ext_decides o st before stem (bs "m") "m" disk (some c) files (by decide +kernel) (by decide +kernel)
  have hf : Fits st c := .inl hp
  have h0 : ∀ s, mStep st s [] = some (.ok s) := by
    intro s
    unfold mStep mLine
    rw [mTelltale_eq]
    simp [mOctave, mLimbo, mMath, matlabPoints, objcPoints, matlabLine, objcLine, hashComment, functionLine, skipBlanks, bs]
  have hl := fun s => lineLoop_eq st (mStep st) h0 (c.length + 1) c s (Nat.lt_succ_self _) hf
  obtain ⟨oct, h1, h2⟩ := m_overLines st hp (textLines c) { objectiveC := if mContext (files.getD []) false then 5 else 0 }
  have hctx := mContext_iff (files.getD []) false
  simp only [Bool.false_eq_true, false_or] at hctx h2
  simp only [Nat.zero_add] at h1
  have hm : detect o st before (source before (stem ++ bs "." ++ bs "m") disk (some c) files) = m st (source before (stem ++ bs "." ++ bs "m") disk (some c) files) := by
    rw [h]; rfl
  rw [hm, m_eq, source_text, show (source before (stem ++ bs "." ++ bs "m") disk (some c) files).filenames = files from rfl, hl, h1]
  simp only [Option.map_some, allPoints]
  rw [Nat.add_comm (if mContext (files.getD []) false = true then 5 else 0)]
  refine ⟨((textLines c).map fun l => objcPoints (seen l)).sum + (if mContext (files.getD []) false = true then 5 else 0), fun e => by rw [if_pos (hctx.mpr e)], fun e => by rw [if_neg (fun x => e (hctx.mp x)), Nat.add_zero], ?_⟩
  generalize ((textLines c).map fun l => objcPoints (seen l)).sum + (if mContext (files.getD []) false = true then 5 else 0) = objc
  generalize ((textLines c).map fun l => limboPoints (seen l)).sum = limbo
  generalize ((textLines c).map fun l => mathPoints (seen l)).sum = math
  generalize ((textLines c).map fun l => matlabPoints (seen l)).sum = matlab
  refine ⟨fun e => ?_, fun e1 e2 e3 => ?_, fun e1 e2 => ⟨fun e3 => ?_, fun e3 => ⟨fun e4 => ?_, fun e4 => ?_⟩⟩⟩
  · rw [if_pos (by simpa [and_assoc] using e)]
  · rw [if_neg (by simpa [and_assoc] using e1), if_pos (by simp [e2, e3])]
  · rw [if_neg (by simpa [and_assoc] using e1), if_neg (by simpa using e2), if_pos e3]
  · rw [if_neg (by simpa [and_assoc] using e1), if_neg (by simpa using e2), if_neg (by omega), if_pos (h2.mpr e4)]
  · rw [if_neg (by simpa [and_assoc] using e1), if_neg (by simpa using e2), if_neg (by omega), if_neg (fun x => e4 (h2.mp x))]

/-- Each language can win: with a declaration, an import, a file in the directory, a comment, an operator, a word. -/
example :
    let run (files : List String) (t : String) := detect mute ⟨true, none⟩ 0 (source 0 (bs "a.m") none (some (bs t)) (some (files.map bs)))
    run [] "x: con 5;\n" = some (some "limbo") ∧ run [] "#import <a.h>\n" = some (some "objective_c") ∧
    run [".h"] "x\n" = some (some "objective_c") ∧ run [".h", "a.c++"] "x\n" = some (some "matlab") ∧
    run [] "(* a *)\nf[#]& , 1\n" = some (some "mathematica") ∧ run [] "x = 1;\n endwhile\n" = some (some "octave") ∧
    run [] "% a\n" = some (some "matlab") := by
  decide +kernel

example : allPoints limboPoints (bs "x: con 5;\n") = 1 ∧ allPoints mathPoints (bs "(* a *)\nf[#]& , 1\n") = 2 ∧
    allPoints objcPoints (bs "#import <a.h>\n-x\n") = 2 ∧ allPoints matlabPoints (bs "% a\n  function (x)\n") = 2 := by
  decide +kernel

example : OctaveLine (bs " endwhile;") ∧ CName (bs "a.c++") := by
  refine ⟨⟨bs "endwhile", by decide, bs " ", bs ";", by decide, ⟨32, by decide, by decide⟩, ?_, by decide⟩, .inl ⟨bs ".c++", by decide, bs "a", by decide⟩⟩
  rintro ⟨a1, c, a2, he, ⟨b, hb, _⟩, _, _⟩
  have := congrArg List.length he
  rw [show bs " " = [32] by decide] at this
  cases a1 with
  | nil => cases hb
  | cons x a1 => simp at this

end Ohcount.Detector
