import Verif.DetectorMore
/-
C60: what decides the language of `.def`, `.mod`, `.fs`, `.bas` and `.h` files, line by line.
-/

namespace Ohcount.Detector

open Ohcount Ohcount.Tables Ohcount.Diff

/-! ### Lines -/

/-- The pieces of a text between its carriage returns and line feeds. -/
def splitNl : Bytes → List Bytes
  | [] => [[]]
  | b :: t =>
    if b = 10 ∨ b = 13 then [] :: splitNl t
    else match splitNl t with
      | x :: r => (b :: x) :: r
      | [] => [[b]]

/-- The lines of a text; empty ones do not matter. -/
def textLines (t : Bytes) : List Bytes := (splitNl t).filter fun l => !l.isEmpty

/-- What is looked at of a line: at most 81 bytes, up to a NUL. -/
def seen (l : Bytes) : Bytes := (l.take 81).takeWhile fun b => b != 0

theorem isNl_iff (b : Byte) : isNl b = true ↔ b = 10 ∨ b = 13 := by
  simp [isNl, or_comm]

theorem splitNl_ne (t : Bytes) : splitNl t ≠ [] := by
  cases t with
  | nil => simp [splitNl]
  | cons b t =>
    unfold splitNl
    split
    · simp
    · split <;> simp

theorem splitNl_eq (t : Bytes) : splitNl t = t.takeWhile notNl ::
    (match t.dropWhile notNl with | [] => [] | _ :: r => splitNl r) := by
  induction t with
  | nil => rfl
  | cons b t ih =>
    conv => lhs; unfold splitNl
    by_cases hb : b = 10 ∨ b = 13
    · have : notNl b = false := by simp [notNl, (isNl_iff b).mpr hb]
      rw [if_pos hb, List.takeWhile_cons, List.dropWhile_cons, this]
      rfl
    · have h1 : isNl b = false := by
        cases h : isNl b with
        | false => rfl
        | true => exact absurd ((isNl_iff b).mp h) hb
      have : notNl b = true := by simp [notNl, h1]
      rw [if_neg hb, List.takeWhile_cons, List.dropWhile_cons, this, ih]
      simp only [if_true]

theorem textLines_skip (t : Bytes) : textLines (t.dropWhile isNl) = textLines t := by
  induction t with
  | nil => rfl
  | cons b t ih =>
    rw [List.dropWhile_cons]
    split
    · rename_i h
      rw [ih]
      unfold textLines
      conv => rhs; unfold splitNl
      rw [if_pos ((isNl_iff b).mp h)]
      simp
    · rfl

theorem textLines_cons (t : Bytes) : textLines t =
    (if t.takeWhile notNl = [] then [] else [t.takeWhile notNl]) ++ textLines ((t.dropWhile notNl).dropWhile isNl) := by
  rw [textLines_skip]
  conv => lhs; unfold textLines; rw [splitNl_eq]
  rw [List.filter_cons]
  have h2 : (match t.dropWhile notNl with | [] => [] | _ :: r => splitNl r).filter (fun l => !l.isEmpty) = textLines (t.dropWhile notNl) := by
    have hh := List.head?_dropWhile_not notNl t
    cases hd : t.dropWhile notNl with
    | nil => rfl
    | cons b r =>
      rw [hd] at hh
      simp only [List.head?_cons] at hh
      have hb : isNl b = true := by
        simp only [notNl, Bool.not_eq_eq_eq_not, Bool.not_true, Bool.not_eq_false'] at hh
        simpa using hh
      unfold textLines
      conv => rhs; unfold splitNl
      rw [if_pos ((isNl_iff b).mp hb)]
      simp
  rw [h2]
  by_cases h : t.takeWhile notNl = []
  · simp [h]
  · simp [h]

/-- The lines one after the other, until one decides. -/
def overLines {σ : Type} (f : σ → Bytes → Option (Except (Option String) σ)) : List Bytes → σ → Option (Except (Option String) σ)
  | [], s => some (.ok s)
  | l :: r, s => (f s (seen l)).bind fun x =>
    match x with
    | .error e => some (.error e)
    | .ok s' => overLines f r s'

theorem lineLoop_eq {σ : Type} (st : Stack) (f : σ → Bytes → Option (Except (Option String) σ)) (h0 : ∀ s, f s [] = some (.ok s)) :
    ∀ (n : Nat) (p : Bytes) (s : σ), p.length < n → Fits st p → lineLoop st f n p s = overLines f (textLines p) s
  | 0, _, _, h, _ => by omega
  | n + 1, p, s, h, hf => by
    unfold lineLoop
    by_cases hp : p = []
    · subst hp; rw [if_pos rfl]; rfl
    · rw [if_neg hp]
      have hl : fetchLine st (p.takeWhile notNl) = some (seen (p.takeWhile notNl)) := by
        obtain ⟨x, hx, _⟩ := fetchLine_fits hf
        rw [hx]
        unfold fetchLine at hx
        split at hx
        · rw [← hx]; rfl
        · cases hx
      rw [hl, Option.bind_some, textLines_cons p]
      have hlt : ((p.dropWhile notNl).dropWhile isNl).length < p.length := by
        cases p with
        | nil => exact absurd rfl hp
        | cons b t =>
          have h1 : ∀ (q : Bytes) (g : Byte → Bool), (q.dropWhile g).length ≤ q.length := fun q g => (List.dropWhile_sublist g).length_le
          rw [List.dropWhile_cons]
          cases hb : notNl b with
          | true =>
            have := h1 t notNl
            have := h1 (t.dropWhile notNl) isNl
            simp only [if_true, List.length_cons]; omega
          | false =>
            have hb' : isNl b = true := by simpa [notNl] using hb
            rw [if_neg (by simp), List.dropWhile_cons, if_pos hb']
            have := h1 t isNl
            simp only [List.length_cons]; omega
      have ih := fun s' => lineLoop_eq st f h0 n ((p.dropWhile notNl).dropWhile isNl) s' (by omega) (hf.imp id fun h => h.suffix ((List.dropWhile_suffix _).trans (List.dropWhile_suffix _)))
      by_cases he : p.takeWhile notNl = []
      · rw [he, if_pos rfl, List.nil_append, show seen [] = [] from rfl, h0, Option.bind_some]
        exact ih s
      · rw [if_neg he]
        simp only [List.singleton_append, overLines]
        congr 1
        funext x
        cases x with
        | error e => rfl
        | ok s' => exact ih s'

/-! ### C60 -/

theorem def_trim (p : Bytes) : deff p = deff (trim p) := by
  induction p with
  | nil => rfl
  | cons b p ih =>
    unfold trim
    rw [List.dropWhile_cons]
    by_cases h : (isBlank b || isNl b) = true
    · rw [if_pos h, deff, if_pos h]; exact ih
    · rw [if_neg h]

theorem mod_trim (p : Bytes) : mod p = mod (trim p) := by
  induction p with
  | nil => rfl
  | cons b p ih =>
    unfold trim
    rw [List.dropWhile_cons]
    by_cases h : (isBlank b || isNl b) = true
    · rw [if_pos h, mod, if_pos h]; exact ih
    · rw [if_neg h]

theorem starts_iff (p : Bytes) (s : String) : starts p s = true ↔ bs s <+: p := by
  unfold starts; exact List.isPrefixOf_iff_prefix

theorem star_iff (p : Bytes) : (hd p == 42) = true ↔ bs "(*" <+: 40 :: p := by
  rw [show bs "(*" = [40, 42] by decide]
  cases p with
  | nil => simp [hd]
  | cons b p => simp [hd, List.cons_prefix_cons]; exact eq_comm

/-- C60, `.def`: Modula-2 iff the first thing in the file that is not a blank or a line end is "(*" or "DEFINITION"; otherwise
no language. -/
theorem C60_def (o : Oracles) (st : Stack) (before : Byte) (stem c : Bytes) (disk : Option Bytes)
    (files : Option (List Bytes)) :
    let r := detect o st before (source before (stem ++ bs "." ++ bs "def") disk (some c) files)
    let m2 := bs "(*" <+: trim c ∨ bs "DEFINITION" <+: trim c
    (m2 → r = some (some "modula2")) ∧ (¬ m2 → r = some none) := by
  have h := ext_decides o st before stem (bs "def") "def" disk (some c) files (by decide +kernel) (by decide +kernel)
  simp only [h, disambiguate, source_text, def_trim c]
  have hh := @trim_head c
  generalize trim c = p at hh
  cases p with
  | nil => decide
  | cons b p =>
    have hb := hh rfl
    rw [deff, if_neg (by simp [hb])]
    by_cases h1 : b = 40
    · subst h1
      have h2 : ¬ bs "DEFINITION" <+: 40 :: p := by
        rw [show bs "DEFINITION" = 68 :: bs "EFINITION" by decide, List.cons_prefix_cons]
        rintro ⟨x, _⟩; exact absurd x (by decide)
      simp only [beq_self_eq_true, if_true, h2, or_false, ← star_iff]
      cases hd p == 42 <;> simp
    · have h3 : ¬ bs "(*" <+: b :: p := by
        rw [show bs "(*" = 40 :: bs "*" by decide, List.cons_prefix_cons]
        rintro ⟨x, _⟩; exact h1 x.symm
      simp only [beq_iff_eq, h1, if_false, h3, false_or, ← starts_iff]
      by_cases h4 : b = 68
      · subst h4
        simp only [if_true]
        cases starts (68 :: p) "DEFINITION" <;> simp
      · have : starts (b :: p) "DEFINITION" = false := by
          cases hs : starts (b :: p) "DEFINITION" with
          | false => rfl
          | true =>
            rw [starts_iff, show bs "DEFINITION" = 68 :: bs "EFINITION" by decide, List.cons_prefix_cons] at hs
            exact absurd hs.1.symm h4
        simp [h4, this]

/-- C60, `.mod`: Modula-2 iff the first thing in the file that is not a blank or a line end is "(*", "IMPLEMENTATION" or "MODULE";
no language if there is none or it starts with one of the letters of these; otherwise AMPL. -/
theorem C60_mod (o : Oracles) (st : Stack) (before : Byte) (stem c : Bytes) (disk : Option Bytes)
    (files : Option (List Bytes)) :
    let r := detect o st before (source before (stem ++ bs "." ++ bs "mod") disk (some c) files)
    let m2 := bs "(*" <+: trim c ∨ bs "IMPLEMENTATION" <+: trim c ∨ bs "MODULE" <+: trim c
    let other := bs "(" <+: trim c ∨ bs "I" <+: trim c ∨ bs "M" <+: trim c
    (m2 → r = some (some "modula2")) ∧ (¬ m2 → trim c = [] ∨ other → r = some none) ∧
    (trim c ≠ [] → ¬ other → r = some (some "ampl")) := by
  have h := ext_decides o st before stem (bs "mod") "mod" disk (some c) files (by decide +kernel) (by decide +kernel)
  simp only [h, disambiguate, source_text, mod_trim c]
  have hh := @trim_head c
  generalize trim c = p at hh
  have one : ∀ (w : String) (x : Byte) (y : Bytes) (b : Byte) (p : Bytes), bs w = x :: y → bs w <+: b :: p → x = b := by
    intro w x y b p hw hp
    rw [hw, List.cons_prefix_cons] at hp
    exact hp.1
  cases p with
  | nil => decide
  | cons b p =>
    have hb := hh rfl
    rw [mod, if_neg (by simp [hb])]
    have e1 := one "(*" 40 (bs "*") b p (by decide)
    have e2 := one "IMPLEMENTATION" 73 (bs "MPLEMENTATION") b p (by decide)
    have e3 := one "MODULE" 77 (bs "ODULE") b p (by decide)
    have s1 : bs "(" <+: b :: p ↔ b = 40 := by rw [show bs "(" = [40] by decide]; simp [List.cons_prefix_cons]; exact eq_comm
    have s2 : bs "I" <+: b :: p ↔ b = 73 := by rw [show bs "I" = [73] by decide]; simp [List.cons_prefix_cons]; exact eq_comm
    have s3 : bs "M" <+: b :: p ↔ b = 77 := by rw [show bs "M" = [77] by decide]; simp [List.cons_prefix_cons]; exact eq_comm
    simp only [s1, s2, s3]
    by_cases h1 : b = 40
    · subst h1
      have n2 : ¬ bs "IMPLEMENTATION" <+: 40 :: p := fun x => absurd (e2 x) (by decide)
      have n3 : ¬ bs "MODULE" <+: 40 :: p := fun x => absurd (e3 x) (by decide)
      simp only [beq_self_eq_true, if_true, n2, n3, or_false, ← star_iff]
      cases hd p == 42 <;> simp
    · have n1 : ¬ bs "(*" <+: b :: p := fun x => h1 (e1 x).symm
      simp only [beq_iff_eq, h1, if_false, n1, false_or, ← starts_iff]
      by_cases h2 : b = 73
      · subst h2
        have n3 : starts (73 :: p) "MODULE" = false := by
          cases hs : starts (73 :: p) "MODULE" with
          | false => rfl
          | true => exact absurd (e3 ((starts_iff _ _).mp hs)) (by decide)
        simp only [if_true, n3]
        cases starts (73 :: p) "IMPLEMENTATION" <;> simp
      · have n2 : starts (b :: p) "IMPLEMENTATION" = false := by
          cases hs : starts (b :: p) "IMPLEMENTATION" with
          | false => rfl
          | true => exact absurd (e2 ((starts_iff _ _).mp hs)).symm h2
        by_cases h3 : b = 77
        · subst h3
          simp only [n2, if_true]
          cases starts (77 :: p) "MODULE" <;> simp
        · have n3 : starts (b :: p) "MODULE" = false := by
            cases hs : starts (b :: p) "MODULE" with
            | false => rfl
            | true => exact absurd (e3 ((starts_iff _ _).mp hs)).symm h3
          simp [h2, h3, n2, n3]

/-- The text without the blanks and tabs at its start. -/
def skipBlanks (l : Bytes) : Bytes := l.dropWhile fun b => b == 32 || b == 9

/-- A line of Forth: a comment or a definition. -/
def forthLine (l : Bytes) : Bool := ["\\ ", ": "].any fun w => (bs w).isPrefixOf (skipBlanks l)

/-- A line of F#: a match arm, a binding, a type or a comment. -/
def fsharpLine (l : Bytes) : Bool := ["|", "let ", "type ", "//"].any fun w => (bs w).isPrefixOf (skipBlanks l)

theorem prefix_line {w x rest : Bytes} (hw : ∀ b ∈ w, notNl b = true) (hr : ∀ b, rest.head? = some b → isNl b = true) :
    w.isPrefixOf (x ++ rest) = w.isPrefixOf x := by
  induction w generalizing x with
  | nil => simp
  | cons a w ih =>
    cases x with
    | nil =>
      cases rest with
      | nil => rfl
      | cons b r =>
        have hb := hr b rfl
        have ha := hw a (by simp)
        have : (a == b) = false := by
          rw [beq_eq_false_iff_ne]
          rintro rfl
          simp [notNl, hb] at ha
        simp [List.isPrefixOf, this]
    | cons b x => simp only [List.cons_append, List.isPrefixOf, ih (fun c hc => hw c (by simp [hc]))]

theorem blank_notNl {b : Byte} (h : isBlank b = true) : notNl b = true := by
  simp only [isBlank, Bool.or_eq_true, beq_iff_eq] at h
  rcases h with rfl | rfl <;> decide

theorem rest_head (p : Bytes) : ∀ b, (p.dropWhile notNl).head? = some b → isNl b = true := by
  intro b hb
  have hh := List.head?_dropWhile_not notNl p
  rw [hb] at hh
  simpa [notNl] using hh

theorem skip_line (p : Bytes) : p.dropWhile isBlank = (p.takeWhile notNl).dropWhile isBlank ++ p.dropWhile notNl := by
  induction p with
  | nil => rfl
  | cons b p ih =>
    by_cases hb : isBlank b = true
    · rw [List.dropWhile_cons, if_pos hb, List.takeWhile_cons, if_pos (blank_notNl hb), List.dropWhile_cons, if_pos hb, List.dropWhile_cons,
        if_pos (blank_notNl hb), ih]
    · rw [List.dropWhile_cons, if_neg hb]
      by_cases hn : notNl b = true
      · rw [List.takeWhile_cons, if_pos hn, List.dropWhile_cons, if_neg hb, List.dropWhile_cons, if_pos hn, List.cons_append,
          List.takeWhile_append_dropWhile]
      · rw [List.takeWhile_cons, if_neg hn, List.dropWhile_cons, if_neg hn]; rfl

theorem starts_line (p : Bytes) (w : String) (hw : ∀ b ∈ bs w, notNl b = true) :
    starts (p.dropWhile isBlank) w = (bs w).isPrefixOf (skipBlanks (p.takeWhile notNl)) := by
  unfold starts
  rw [skip_line, prefix_line hw (rest_head p)]
  rfl

theorem fsLine_eq (p : Bytes) : fsLine p = ((if forthLine (p.takeWhile notNl) then 1 else 0), (if fsharpLine (p.takeWhile notNl) then 1 else 0)) := by
  unfold fsLine forthLine fsharpLine
  dsimp only
  rw [starts_line p "\\ " (by decide), starts_line p ": " (by decide), starts_line p "|" (by decide), starts_line p "let " (by decide),
    starts_line p "type " (by decide), starts_line p "//" (by decide)]
  simp only [List.any_cons, List.any_nil, Bool.or_false]
  generalize skipBlanks (p.takeWhile notNl) = q
  rw [show bs "\\ " = [92, 32] by decide, show bs ": " = [58, 32] by decide, show bs "|" = [124] by decide,
    show bs "let " = [108, 101, 116, 32] by decide, show bs "type " = [116, 121, 112, 101, 32] by decide, show bs "//" = [47, 47] by decide]
  have hx : ([92, 32] : Bytes).isPrefixOf q = true ∨ ([58, 32] : Bytes).isPrefixOf q = true → ([124] : Bytes).isPrefixOf q = false ∧
      ([108, 101, 116, 32] : Bytes).isPrefixOf q = false ∧ ([116, 121, 112, 101, 32] : Bytes).isPrefixOf q = false ∧
      ([47, 47] : Bytes).isPrefixOf q = false := by
    cases q with
    | nil => decide
    | cons a q =>
      simp only [List.isPrefixOf, Bool.and_eq_true, beq_iff_eq]
      rintro (⟨rfl, _⟩ | ⟨rfl, _⟩) <;> exact ⟨rfl, rfl, rfl, rfl⟩
  generalize ([92, 32] : Bytes).isPrefixOf q = u1 at *
  generalize ([58, 32] : Bytes).isPrefixOf q = u2 at *
  generalize ([124] : Bytes).isPrefixOf q = u3 at *
  generalize ([108, 101, 116, 32] : Bytes).isPrefixOf q = u4 at *
  generalize ([116, 121, 112, 101, 32] : Bytes).isPrefixOf q = u5 at *
  generalize ([47, 47] : Bytes).isPrefixOf q = u6 at *
  revert hx u1 u2 u3 u4 u5 u6
  decide

theorem after_line (p : Bytes) : (p.dropWhile isBlank).dropWhile notNl = p.dropWhile notNl := by
  induction p with
  | nil => rfl
  | cons b p ih =>
    by_cases hb : isBlank b = true
    · rw [List.dropWhile_cons, if_pos hb, List.dropWhile_cons (p := notNl) (x := b), if_pos (blank_notNl hb), ih]
    · rw [List.dropWhile_cons, if_neg hb]

theorem next_shorter (p : Bytes) (hp : p ≠ []) : ((p.dropWhile notNl).dropWhile isNl).length < p.length := by
  cases p with
  | nil => exact absurd rfl hp
  | cons b t =>
    have h1 : ∀ (q : Bytes) (g : Byte → Bool), (q.dropWhile g).length ≤ q.length := fun q g => (List.dropWhile_sublist g).length_le
    rw [List.dropWhile_cons]
    cases hb : notNl b with
    | true =>
      have := h1 t notNl
      have := h1 (t.dropWhile notNl) isNl
      simp only [if_true, List.length_cons]; omega
    | false =>
      have hb' : isNl b = true := by simpa [notNl] using hb
      rw [if_neg (by simp), List.dropWhile_cons, if_pos hb']
      have := h1 t isNl
      simp only [List.length_cons]; omega

theorem fsLoop_eq : ∀ (n : Nat) (p : Bytes) (f s : Nat), p.length < n →
    fsLoop n p (f, s) = some (f + ((textLines p).filter forthLine).length, s + ((textLines p).filter fsharpLine).length)
  | 0, _, _, _, h => by omega
  | n + 1, p, f, s, h => by
    unfold fsLoop
    by_cases hp : p = []
    · subst hp; rw [if_pos rfl]; rfl
    · rw [if_neg hp]
      dsimp only
      have := next_shorter p hp
      rw [after_line, fsLoop_eq n _ _ _ (by omega), textLines_cons p, fsLine_eq]
      by_cases he : p.takeWhile notNl = []
      · rw [he, if_pos rfl]
        simp [show forthLine [] = false by decide, show fsharpLine [] = false by decide]
      · rw [if_neg he, List.filter_append, List.filter_append, List.length_append, List.length_append]
        simp only [List.filter_cons, List.filter_nil]
        cases forthLine (p.takeWhile notNl) <;> cases fsharpLine (p.takeWhile notNl) <;> simp <;> omega

/-- C60, `.fs`: Forth if more lines are Forth than F#, F# if it is the other way round, and no language otherwise. -/
theorem C60_fs (o : Oracles) (st : Stack) (before : Byte) (stem c : Bytes) (disk : Option Bytes)
    (files : Option (List Bytes)) :
    let r := detect o st before (source before (stem ++ bs "." ++ bs "fs") disk (some c) files)
    let forth := ((textLines (cstr c)).filter forthLine).length
    let fsharp := ((textLines (cstr c)).filter fsharpLine).length
    r = some (if forth > fsharp then some "forth" else if forth < fsharp then some "fsharp" else none) := by
  have h := ext_decides o st before stem (bs "fs") "fs" disk (some c) files (by decide +kernel) (by decide +kernel)
  simp only [h, disambiguate, fs, source_contents]
  rw [fsLoop_eq _ _ _ _ (Nat.lt_succ_self _)]
  simp

example : ((textLines (bs "let x = 1\n\\ a\r\n : f\n\n// b\n")).filter forthLine).length = 2 ∧
    ((textLines (bs "let x = 1\n\\ a\r\n : f\n\n// b\n")).filter fsharpLine).length = 2 := by decide +kernel

/-- A line with a line number: digits, blanks and a letter or digit. -/
def Numbered (l : Bytes) : Prop :=
  ∃ d w c r, l = d ++ w ++ c :: r ∧ d ≠ [] ∧ w ≠ [] ∧ (∀ b ∈ d, isdigit b = true) ∧ (∀ b ∈ w, isBlank b = true) ∧ isalnum c = true

theorem takeWhile_all_append {p : Byte → Bool} {a b : Bytes} (ha : ∀ x ∈ a, p x = true) (hb : ∀ x, b.head? = some x → p x = false) :
    (a ++ b).takeWhile p = a ∧ (a ++ b).dropWhile p = b := by
  induction a with
  | nil =>
    cases b with
    | nil => exact ⟨rfl, rfl⟩
    | cons x b => simp [hb x rfl]
  | cons x a ih =>
    have := ih (fun y hy => ha y (by simp [hy]))
    simp [ha x (by simp), this.1, this.2]

theorem mem_takeWhile {p : Byte → Bool} {l : Bytes} : ∀ b ∈ l.takeWhile p, p b = true := by
  induction l with
  | nil => intro b hb; cases hb
  | cons a l ih =>
    intro b hb
    rw [List.takeWhile_cons] at hb
    split at hb
    · rcases List.mem_cons.mp hb with rfl | hb
      · assumption
      · exact ih b hb
    · cases hb

theorem basicLine_iff (l : Bytes) : basicLine l = true ↔ Numbered l := by
  constructor
  · intro h
    unfold basicLine at h
    split at h
    · rename_i h1
      simp only [Bool.and_eq_true] at h
      obtain ⟨h2, h3⟩ := h
      have a1 := List.takeWhile_append_dropWhile (p := isdigit) (l := l)
      have a2 := List.takeWhile_append_dropWhile (p := isBlank) (l := l.dropWhile isdigit)
      generalize hq : (l.dropWhile isdigit).dropWhile isBlank = q at *
      cases q with
      | nil => exact absurd h3 (by decide)
      | cons c r =>
        refine ⟨l.takeWhile isdigit, (l.dropWhile isdigit).takeWhile isBlank, c, r, by rw [List.append_assoc, a2, a1], ?_, ?_, mem_takeWhile, mem_takeWhile, h3⟩
        · cases l with
          | nil => exact absurd h1 (by decide)
          | cons x l =>
            rw [List.takeWhile_cons, if_pos (by exact h1)]; simp
        · generalize l.dropWhile isdigit = z at *
          cases z with
          | nil => exact absurd h2 (by decide)
          | cons x z =>
            rw [List.takeWhile_cons, if_pos (by exact h2)]; simp
    · cases h
  · rintro ⟨d, w, c, r, rfl, hd1, hw1, hd2, hw2, hc⟩
    have nb : ∀ b, isBlank b = true → isdigit b = false ∧ isalnum b = false := by
      intro b hb
      simp only [isBlank, Bool.or_eq_true, beq_iff_eq] at hb
      rcases hb with rfl | rfl <;> decide
    have k1 := takeWhile_all_append (p := isdigit) (a := d) (b := w ++ c :: r) hd2 (by
      intro x hx
      cases w with
      | nil => exact absurd rfl hw1
      | cons y w =>
        simp only [List.cons_append, List.head?_cons, Option.some.injEq] at hx
        exact (nb x (hw2 x (by simp [hx]))).1)
    have k2 := takeWhile_all_append (p := isBlank) (a := w) (b := c :: r) hw2 (by
      intro x hx
      simp only [List.head?_cons, Option.some.injEq] at hx
      subst hx
      cases hb : isBlank c with
      | false => rfl
      | true => rw [(nb c hb).2] at hc; cases hc)
    unfold basicLine
    rw [List.append_assoc, k1.2]
    dsimp only
    rw [k2.2]
    have e1 : isdigit (hd (d ++ (w ++ c :: r))) = true := by
      cases d with
      | nil => exact absurd rfl hd1
      | cons x d => exact hd2 x (by simp)
    have e2 : isBlank (hd (w ++ c :: r)) = true := by
      cases w with
      | nil => exact absurd rfl hw1
      | cons x w => exact hw2 x (by simp)
    rw [if_pos e1, e2]
    exact hc

/-- The name of a file of a Visual Basic project: it ends in one of these extensions, or is one of them. -/
def VbName (name : Bytes) : Prop :=
  ∃ x ∈ [bs "frm", bs "frx", bs "vba", bs "vbp", bs "vbs"], name = x ∨ ∃ s, name = s ++ bs "." ++ x

theorem lastPart (x : Bytes) (hx : ∀ b ∈ x, b ≠ 46) (name : Bytes) :
    (name.reverse.takeWhile fun b => b != 46).reverse = x ↔ name = x ∨ ∃ s, name = s ++ bs "." ++ x := by
  constructor
  · intro h
    have a := List.takeWhile_append_dropWhile (p := fun b : Byte => b != 46) (l := name.reverse)
    have hh := List.head?_dropWhile_not (fun b : Byte => b != 46) name.reverse
    have e : name = (name.reverse.dropWhile fun b => b != 46).reverse ++ x := by
      rw [← h, ← List.reverse_append, a, List.reverse_reverse]
    cases hd : name.reverse.dropWhile fun b => b != 46 with
    | nil => rw [hd] at e; exact .inl (by simpa using e)
    | cons b r =>
      rw [hd] at e hh
      have hb : b = 46 := by simpa using hh
      subst hb
      exact .inr ⟨r.reverse, by rw [e]; simp [bs]⟩
  · rintro (rfl | ⟨s, rfl⟩)
    · have := (takeWhile_all_append (p := fun b : Byte => b != 46) (a := name.reverse) (b := []) (by intro b hb; simpa using hx b (by simpa using hb)) (by simp)).1
      rw [List.append_nil] at this
      rw [this, List.reverse_reverse]
    · have := (takeWhile_all_append (p := fun b : Byte => b != 46) (a := x.reverse) (b := (s ++ bs ".").reverse) (by intro b hb; simpa using hx b (by simpa using hb)) (by simp [bs])).1
      rw [List.reverse_append, this, List.reverse_reverse]

theorem vbFile_iff (name : Bytes) : vbFile name = true ↔ VbName name := by
  unfold vbFile VbName
  simp only [Bool.or_eq_true, beq_iff_eq, List.mem_cons, List.not_mem_nil, or_false, exists_eq_or_imp, exists_eq_left,
    lastPart (bs "frm") (by decide), lastPart (bs "frx") (by decide), lastPart (bs "vba") (by decide), lastPart (bs "vbp") (by decide),
    lastPart (bs "vbs") (by decide), or_assoc]

theorem overLines_unit (g : Bytes → Bool) (e : Option String) (f : Unit → Bytes → Option (Except (Option String) Unit))
    (hf : ∀ u l, f u l = some (if g l then .error e else .ok ())) : ∀ (ls : List Bytes),
    overLines f ls () = some (if ls.any (fun l => g (seen l)) then .error e else .ok ())
  | [] => rfl
  | l :: r => by
    simp only [overLines, hf, Option.bind_some, List.any_cons]
    have ih := overLines_unit g e f hf r
    by_cases hg : g (seen l) = true
    · simp only [hg, if_true, Bool.true_or]
    · simp only [hg, if_false, Bool.false_or, ih]
      simp

/-- C60, `.bas` and `.bi`: classic Basic iff some line has a line number; otherwise Visual Basic iff the file context has a file of a
Visual Basic project; otherwise structured Basic. -/
theorem C60_basic (o : Oracles) (st : Stack) (before : Byte) (stem c : Bytes) (disk : Option Bytes) (files : Option (List Bytes))
    (e : Bytes) (he : e ∈ [bs "bas", bs "bi"]) (hf : Fits st c) :
    let r := detect o st before (source before (stem ++ bs "." ++ e) disk (some c) files)
    let classic := ∃ l ∈ textLines c, Numbered (seen l)
    let visual := ∃ n ∈ files.getD [], VbName n
    (classic → r = some (some "classic_basic")) ∧ (¬ classic → visual → r = some (some "visualbasic")) ∧
    (¬ classic → ¬ visual → r = some (some "structured_basic")) := by
  have h := ext_decides o st before stem e "basic" disk (some c) files (by
    revert e; decide +kernel) (by revert e; decide +kernel)
  have hl := lineLoop_eq st (fun (_ : Unit) line => some (if basicLine line then Except.error (some "classic_basic") else .ok ()))
    (fun _ => rfl) (c.length + 1) c () (Nat.lt_succ_self _) hf
  rw [overLines_unit basicLine (some "classic_basic") _ (fun _ _ => rfl)] at hl
  simp only [h, disambiguate, basic, source_text, hl]
  have e1 : ((textLines c).any fun l => basicLine (seen l)) = true ↔ ∃ l ∈ textLines c, Numbered (seen l) := by
    simp only [List.any_eq_true, basicLine_iff]
  have e2 : ((source before (stem ++ bs "." ++ e) disk (some c) files).filenames.getD []).any vbFile = true ↔ ∃ n ∈ files.getD [], VbName n := by
    simp only [List.any_eq_true, vbFile_iff]; rfl
  rw [← e1, ← e2]
  generalize ((textLines c).any fun l => basicLine (seen l)) = u
  generalize ((source before (stem ++ bs "." ++ e) disk (some c) files).filenames.getD []).any vbFile = v
  cases u <;> cases v <;> simp

example : Fits .strict (bs "print 1\n10 print 2\n") ∧ ∃ l ∈ textLines (bs "print 1\n10 print 2\n"), Numbered (seen l) := by
  refine ⟨.inr ?_, bs "10 print 2", by decide +kernel, bs "10", bs " ", 112, bs "rint 2", by decide +kernel, by decide, by decide, by decide, by decide, by decide⟩
  intro a l b he _
  have := congrArg List.length he
  simp only [List.length_append, show (bs "print 1\n10 print 2\n").length = 19 by decide] at this
  omega

/-! ### `.h` -/

/-- A character of a word. -/
def wordChar (b : Byte) : Bool := isalnum b || b == 95

/-- The word `w` occurs in the line, with no word characters next to it; `u` stands before the line. -/
def HasWord (u : Byte) (l w : Bytes) : Prop :=
  ∃ a b, l = a ++ w ++ b ∧ wordChar (a.getLastD u) = false ∧ wordChar (b.headD 0) = false

/-- Words that only a C++ header has. -/
def cppWords : List Bytes := [bs "class", bs "namespace", bs "template", bs "typename"]

/-- The line includes a header of the C++ library, or a file with an extension of C++. -/
def IncludesCpp (l : Bytes) : Prop :=
  ∃ w1 w2 q name rest, l = bs "#" ++ w1 ++ bs "include" ++ w2 ++ q :: (name ++ rest) ∧
    (∀ b ∈ w1, isBlank b = true) ∧ w2 ≠ [] ∧ (∀ b ∈ w2, isBlank b = true) ∧ (q = 60 ∨ q = 34) ∧
    (∀ b ∈ name, b ≠ 62 ∧ b ≠ 34) ∧ (∀ b, rest.head? = some b → b = 62 ∨ b = 34) ∧
    (name ∈ cppHeaders ∨ ∃ s e, name = s ++ bs "." ++ e ∧ (e, ExtVal.lang "cpp") ∈ extensions)

theorem cppWords_lower : ∀ w ∈ cppWords, w ≠ [] ∧ ∀ b ∈ w, islower b = true := by decide +kernel

theorem lower_word {b : Byte} (h : islower b = true) : wordChar b = true := by
  simp [wordChar, isalnum, h]

theorem hasWord_cons {u c : Byte} {p w : Bytes} (hw : w ≠ []) (hl : ∀ b ∈ w, islower b = true)
    (hc : islower c = false ∨ wordChar u = true) : HasWord u (c :: p) w ↔ HasWord c p w := by
  constructor
  · rintro ⟨a, b, he, h1, h2⟩
    cases a with
    | nil =>
      cases w with
      | nil => exact absurd rfl hw
      | cons x w =>
        simp only [List.nil_append, List.cons_append, List.cons.injEq] at he
        rcases hc with hc | hc
        · rw [he.1, hl x (by simp)] at hc; cases hc
        · rw [show ([] : Bytes).getLastD u = u from rfl, hc] at h1; cases h1
    | cons x a =>
      simp only [List.cons_append, List.cons.injEq] at he
      refine ⟨a, b, he.2, ?_, h2⟩
      rw [he.1]
      cases a <;> exact h1
  · rintro ⟨a, b, he, h1, h2⟩
    refine ⟨c :: a, b, by rw [he]; rfl, ?_, h2⟩
    cases a <;> exact h1

theorem hasWord_run {u : Byte} {run rest w : Bytes} (hrun : ∀ b ∈ run, islower b = true) (hne : run ≠ [])
    (hw : w ≠ []) (hl : ∀ b ∈ w, islower b = true) (hr : ∀ b, rest.head? = some b → islower b = false) (hu : wordChar u = false) :
    HasWord u (run ++ rest) w ↔ (w = run ∧ wordChar (rest.headD 0) = false) ∨ HasWord (rest.headD 0) (rest.drop 1) w := by
  constructor
  · rintro ⟨a, b, he, h1, h2⟩
    by_cases ha : a.length ≤ run.length
    · -- the word starts in the run
      cases a with
      | nil =>
        left
        have k1 := takeWhile_all_append (p := islower) hrun hr
        have k2 := takeWhile_all_append (p := islower) (a := w) (b := b) hl (by
          intro x hx
          cases b with
          | nil => cases hx
          | cons y b =>
            simp only [List.head?_cons, Option.some.injEq] at hx
            subst hx
            cases hy : islower y with
            | false => rfl
            | true => rw [show (y :: b).headD 0 = y from rfl, lower_word hy] at h2; cases h2)
        rw [List.nil_append] at he
        rw [← he] at k2
        refine ⟨by rw [← k2.1, k1.1], ?_⟩
        rw [← k1.2, k2.2]; exact h2
      | cons x a =>
        exfalso
        have hlast : (x :: a).getLastD u ∈ run := by
          have e : (x :: a).getLastD u = (x :: a).getLast (by simp) := by
            rw [List.getLastD_eq_getLast?, List.getLast?_eq_some_getLast (by simp)]; rfl
          rw [e]
          have hta : x :: a = run.take (x :: a).length := by
            have := congrArg (List.take (x :: a).length) he
            rw [List.append_assoc, List.take_left, List.take_append_of_le_length ha] at this
            exact this.symm
          have hgm := List.getLast_mem (l := x :: a) (by simp)
          exact List.mem_of_mem_take (i := (x :: a).length) (by rw [← hta]; exact hgm)
        rw [lower_word (hrun _ hlast)] at h1; cases h1
    · right
      have hlen : run.length < a.length := by omega
      have e1 : run = a.take run.length := by
        have := congrArg (List.take run.length) he
        rw [List.take_left, List.append_assoc, List.take_append_of_le_length (by omega)] at this
        exact this
      have e2 : rest = a.drop run.length ++ (w ++ b) := by
        have := congrArg (List.drop run.length) he
        rw [List.drop_left, List.append_assoc, List.drop_append_of_le_length (by omega)] at this
        exact this
      cases hd : a.drop run.length with
      | nil =>
        have := congrArg List.length hd
        rw [List.length_drop, List.length_nil] at this; omega
      | cons d a' =>
        rw [hd] at e2
        refine ⟨a', b, by rw [e2, List.append_assoc]; rfl, ?_, h2⟩
        have ea : a = run ++ d :: a' := by
          rw [e1]
          rw [← hd, List.take_append_drop]
        rw [e2]
        rw [ea, List.getLastD_eq_getLast?, List.getLast?_append] at h1
        rw [List.cons_append, List.headD_cons]
        cases a' with
        | nil => simpa using h1
        | cons y a' =>
          rw [List.getLastD_eq_getLast?]
          simpa [List.getLast?_cons_cons, List.getLast?_cons] using h1
  · rintro (⟨rfl, h2⟩ | ⟨a, b, he, h1, h2⟩)
    · exact ⟨[], rest, by simp, hu, h2⟩
    · cases rest with
      | nil =>
        exfalso
        have := congrArg List.length he
        have hwl := List.length_pos_iff.mpr hw
        simp at this
        omega
      | cons d rest =>
        rw [List.drop_one, List.tail_cons] at he
        refine ⟨run ++ d :: a, b, by rw [he]; simp, ?_, h2⟩
        rw [List.headD_cons] at h1
        rw [List.getLastD_eq_getLast?, List.getLast?_append]
        cases a with
        | nil => simpa using h1
        | cons y a =>
          rw [List.getLastD_eq_getLast?] at h1
          simpa [List.getLast?_cons_cons, List.getLast?_cons] using h1

theorem hWords_iff (st : Stack) (hp : st.pad = true) : ∀ (n : Nat) (u : Byte) (p : Bytes), p.length < n →
    ∃ r, hWords st n (some u) p = some r ∧ (r = true ↔ ∃ w ∈ cppWords, HasWord u p w)
  | 0, _, _, h => by omega
  | n + 1, u, [], _ => by
    refine ⟨false, rfl, ?_⟩
    simp only [Bool.false_eq_true, false_iff]
    rintro ⟨w, hw, a, b, he, _⟩
    have := congrArg List.length he
    have hwl := List.length_pos_iff.mpr (cppWords_lower w hw).1
    simp at this
    omega
  | n + 1, u, c :: p, h => by
    have skip : (islower c = false ∨ wordChar u = true) → ∃ r, hWords st n (some c) p = some r ∧ (r = true ↔ ∃ w ∈ cppWords, HasWord u (c :: p) w) := by
      intro hc
      obtain ⟨r, h1, h2⟩ := hWords_iff st hp n c p (by simp at h; omega)
      refine ⟨r, h1, h2.trans ?_⟩
      constructor
      · rintro ⟨w, hw, hh⟩
        exact ⟨w, hw, (hasWord_cons (cppWords_lower w hw).1 (cppWords_lower w hw).2 hc).mpr hh⟩
      · rintro ⟨w, hw, hh⟩
        exact ⟨w, hw, (hasWord_cons (cppWords_lower w hw).1 (cppWords_lower w hw).2 hc).mp hh⟩
    unfold hWords
    by_cases hc : islower c = true
    · simp only [hc, if_true, Option.bind_some]
      by_cases hu : (!isalnum u && u != 95) = true
      · have hu' : wordChar u = false := by
          simp only [Bool.and_eq_true, Bool.not_eq_true', bne_iff_ne] at hu
          simp [wordChar, hu.1, hu.2]
        simp only [hu, if_true]
        have er := List.takeWhile_append_dropWhile (p := islower) (l := c :: p)
        have hrest : ∀ b, ((c :: p).dropWhile islower).head? = some b → islower b = false := by
          intro b hb
          have hh := List.head?_dropWhile_not islower (c :: p)
          rw [hb] at hh
          simpa using hh
        have hne : (c :: p).takeWhile islower ≠ [] := by rw [List.takeWhile_cons, if_pos hc]; simp
        have hlen : (((c :: p).dropWhile islower).drop 1).length < n := by
          have h1 := congrArg List.length er
          rw [List.length_append] at h1
          have h2 : 0 < ((c :: p).takeWhile islower).length := List.length_pos_iff.mpr hne
          rw [List.length_drop]; omega
        obtain ⟨r, h1, h2⟩ := hWords_iff st hp n (hd ((c :: p).dropWhile islower)) (((c :: p).dropWhile islower).drop 1) hlen
        have key : ∀ w ∈ cppWords, HasWord u (c :: p) w ↔ (w = (c :: p).takeWhile islower ∧ wordChar (hd ((c :: p).dropWhile islower)) = false) ∨
            HasWord (hd ((c :: p).dropWhile islower)) (((c :: p).dropWhile islower).drop 1) w := by
          intro w hw
          have := hasWord_run (u := u) (run := (c :: p).takeWhile islower) (rest := (c :: p).dropWhile islower) (w := w) mem_takeWhile hne
            (cppWords_lower w hw).1 (cppWords_lower w hw).2 hrest hu'
          rw [er] at this
          exact this
        generalize (c :: p).takeWhile islower = run at *
        generalize (c :: p).dropWhile islower = rest at *
        by_cases hn : (!isalnum (hd rest) && hd rest != 95) = true
        · have hn' : wordChar (hd rest) = false := by
            simp only [Bool.and_eq_true, Bool.not_eq_true', bne_iff_ne] at hn
            simp [wordChar, hn.1, hn.2]
          simp only [hn, if_true, copyBuf, hp, or_true, Option.bind_some]
          have hk : (run == bs "class" || run == bs "namespace" || run == bs "template" || run == bs "typename") = true ↔ run ∈ cppWords := by
            simp [cppWords, or_assoc]
          by_cases hm : run ∈ cppWords
          · rw [if_pos (hk.mpr hm)]
            exact ⟨true, rfl, by simp only [true_iff]; exact ⟨run, hm, (key run hm).mpr (.inl ⟨rfl, hn'⟩)⟩⟩
          · rw [if_neg (fun x => hm (hk.mp x))]
            refine ⟨r, h1, h2.trans ?_⟩
            constructor
            · rintro ⟨w, hw, hh⟩; exact ⟨w, hw, (key w hw).mpr (.inr hh)⟩
            · rintro ⟨w, hw, hh⟩
              rcases (key w hw).mp hh with ⟨rfl, _⟩ | hh
              · exact absurd hw hm
              · exact ⟨w, hw, hh⟩
        · have hn' : wordChar (hd rest) = true := by
            cases hz : wordChar (hd rest) with
            | true => rfl
            | false =>
              simp only [wordChar, Bool.or_eq_false_iff] at hz
              exact absurd (by rw [hz.1]; simpa using hz.2) hn
          simp only [hn]
          refine ⟨r, by simpa using h1, h2.trans ?_⟩
          constructor
          · rintro ⟨w, hw, hh⟩; exact ⟨w, hw, (key w hw).mpr (.inr hh)⟩
          · rintro ⟨w, hw, hh⟩
            rcases (key w hw).mp hh with ⟨_, hx⟩ | hh
            · rw [hn'] at hx; cases hx
            · exact ⟨w, hw, hh⟩
      · have hu' : wordChar u = true := by
          cases hz : wordChar u with
          | true => rfl
          | false =>
            simp only [wordChar, Bool.or_eq_false_iff] at hz
            exact absurd (by rw [hz.1]; simpa using hz.2) hu
        rw [if_neg hu]; exact skip (.inr hu')
    · have hc' : islower c = false := by simpa using hc
      dsimp only; rw [if_neg hc]; exact skip (.inl hc')

theorem rd_append (a b : Bytes) : rd (a ++ b) a.length = some (hd b) := by
  unfold rd
  cases b with
  | nil => simp [hd]
  | cons x b => simp [hd]

theorem noDot_split {pre name s e : Bytes} (hp : ∀ b ∈ pre, b ≠ 46) (h : pre ++ name = s ++ bs "." ++ e) :
    ∃ s', name = s' ++ bs "." ++ e := by
  rw [List.append_assoc, List.append_eq_append_iff] at h
  rcases h with ⟨a, h1, h2⟩ | ⟨a, h1, h2⟩
  · exact ⟨a, by rw [h2, List.append_assoc]⟩
  · cases a with
    | nil => exact ⟨[], by simpa using h2.symm⟩
    | cons x a =>
      rw [show bs "." = [46] by decide] at h2
      simp only [List.singleton_append, List.cons_append, List.cons.injEq] at h2
      exact absurd h2.1.symm (hp x (by rw [h1]; simp))

theorem ext_no_hash : ∀ x ∈ extensions, x.1.head? ≠ some 35 ∧ ∀ b ∈ x.1, b ≠ 46 := by decide +kernel

theorem incl_ext (pre name : Bytes) (hp : ∀ b ∈ pre, b ≠ 46) (hh : pre.head? = some 35) :
    fromExt ((pre ++ name).reverse.takeWhile fun c => c != 46).reverse = some (.lang "cpp") ↔
      ∃ s e, name = s ++ bs "." ++ e ∧ (e, ExtVal.lang "cpp") ∈ extensions := by
  constructor
  · intro h
    have hm := lookup_mem h
    generalize he : ((pre ++ name).reverse.takeWhile fun c => c != 46).reverse = e at *
    rcases (lastPart e (ext_no_hash _ hm).2 (pre ++ name)).mp he with h1 | ⟨s, h1⟩
    · exfalso
      have := (ext_no_hash _ hm).1
      cases pre with
      | nil => cases hh
      | cons x pre => rw [← h1] at this; exact this hh
    · obtain ⟨s', h2⟩ := noDot_split hp h1
      exact ⟨s', e, h2, hm⟩
  · rintro ⟨s, e, rfl, hm⟩
    rw [(lastPart e (ext_no_hash _ hm).2 _).mpr (.inr ⟨pre ++ s, by simp⟩)]
    exact fromExt_mem hm

theorem blank_ne {b : Byte} (h : isBlank b = true) : b ≠ 46 ∧ b ≠ 105 ∧ b ≠ 60 ∧ b ≠ 34 := by
  simp only [isBlank, Bool.or_eq_true, beq_iff_eq] at h
  rcases h with rfl | rfl <;> decide

/-- A line of the form of an include directive. -/
theorem hInclude_form (st : Stack) (hp : st.pad = true) (w1 w2 : Bytes) (q : Byte) (name rest : Bytes) (h1 : ∀ b ∈ w1, isBlank b = true) (h2 : w2 ≠ [])
    (h3 : ∀ b ∈ w2, isBlank b = true) (h4 : q = 60 ∨ q = 34) (h5 : ∀ b ∈ name, b ≠ 62 ∧ b ≠ 34)
    (h6 : ∀ b, rest.head? = some b → b = 62 ∨ b = 34) :
    ∃ r, hInclude st (bs "#" ++ w1 ++ bs "include" ++ w2 ++ q :: (name ++ rest)) = some r ∧
      (r = true ↔ (name ∈ cppHeaders ∨ ∃ s e, name = s ++ bs "." ++ e ∧ (e, ExtVal.lang "cpp") ∈ extensions)) := by
  have el : bs "#" ++ w1 ++ bs "include" ++ w2 ++ q :: (name ++ rest) = 35 :: (w1 ++ (bs "include" ++ (w2 ++ q :: (name ++ rest)))) := by
    rw [show bs "#" = [35] by decide]; simp
  have k1 := takeWhile_all_append (p := isBlank) (a := w1) (b := bs "include" ++ (w2 ++ q :: (name ++ rest))) h1 (by
    intro x hx
    rw [show bs "include" = 105 :: bs "nclude" by decide] at hx
    simp only [List.cons_append, List.head?_cons, Option.some.injEq] at hx
    subst hx; decide)
  cases w2 with
  | nil => exact absurd rfl h2
  | cons y w2 =>
    have k2 := takeWhile_all_append (p := isBlank) (a := w2) (b := q :: (name ++ rest)) (fun b hb => h3 b (by simp [hb])) (by
      intro x hx
      simp only [List.head?_cons, Option.some.injEq] at hx
      subst hx
      rcases h4 with rfl | rfl <;> decide)
    have k3 := takeWhile_all_append (p := fun c : Byte => c != 62 && c != 34) (a := name) (b := rest) (by
      intro b hb; simp [(h5 b hb).1, (h5 b hb).2]) (by
      intro x hx
      rcases h6 x hx with rfl | rfl <;> decide)
    have hq : (hd (q :: (name ++ rest)) == 60 || hd (q :: (name ++ rest)) == 34) = true := by
      rcases h4 with rfl | rfl <;> rfl
    unfold hInclude
    generalize hline : bs "#" ++ w1 ++ bs "include" ++ (y :: w2) ++ q :: (name ++ rest) = line at *
    have e0 : (hd line == 35) = true := by rw [el]; rfl
    have e1 : (line.drop 1).dropWhile isBlank = bs "include" ++ (y :: w2 ++ q :: (name ++ rest)) := by
      rw [el]; exact k1.2
    have e2 : starts (bs "include" ++ (y :: w2 ++ q :: (name ++ rest))) "include" = true := by rw [starts_iff]; exact List.prefix_append _ _
    have e3 : rd (bs "include" ++ (y :: w2 ++ q :: (name ++ rest))) 7 = some y := rd_append (bs "include") _
    have e4 : (bs "include" ++ (y :: w2 ++ q :: (name ++ rest))).drop 8 = w2 ++ q :: (name ++ rest) := by
      rw [show bs "include" = [105, 110, 99, 108, 117, 100, 101] by decide]; rfl
    have e5 : line.take (line.length - (name ++ rest).length + name.length) = 35 :: (w1 ++ (bs "include" ++ (y :: w2 ++ [q]))) ++ name := by
      have : line = (35 :: (w1 ++ (bs "include" ++ (y :: w2 ++ [q]))) ++ name) ++ rest := by rw [el]; simp
      have hlen : line.length - (name ++ rest).length + name.length = (35 :: (w1 ++ (bs "include" ++ (y :: w2 ++ [q]))) ++ name).length := by
        rw [this]; simp only [List.length_append]; omega
      rw [hlen, this]
      exact List.take_left
    dsimp only
    rw [if_pos e0, e1, if_pos e2, e3]
    simp only [Option.map_some, Option.bind_some, h3 y (by simp), if_true, e4, k2.2, hq]
    rw [List.drop_one, List.tail_cons, k3.1, e5]
    simp only [copyBuf, hp, or_true, if_true, Option.bind_some]
    have hhd : isCppHeader name = true ↔ name ∈ cppHeaders := by
      simp only [isCppHeader, List.any_eq_true, decide_eq_true_eq, exists_eq_right]
    have hpre : ∀ b ∈ (35 :: (w1 ++ (bs "include" ++ (y :: w2 ++ [q]))) : Bytes), b ≠ 46 := by
      intro b hb
      simp only [List.mem_cons, List.mem_append, List.not_mem_nil, or_false] at hb
      rcases hb with rfl | hb | hb | (hb | hb) | hb
      · decide
      · exact (blank_ne (h1 b hb)).1
      · revert b; decide
      · subst hb; exact (blank_ne (h3 b (by simp))).1
      · exact (blank_ne (h3 b (by simp [hb]))).1
      · subst hb; rcases h4 with rfl | rfl <;> decide
    have hx := incl_ext (35 :: (w1 ++ (bs "include" ++ (y :: w2 ++ [q])))) name hpre rfl
    by_cases hc : name ∈ cppHeaders
    · rw [if_pos (hhd.mpr hc)]
      exact ⟨true, rfl, by simp [hc]⟩
    · rw [if_neg (fun z => hc (hhd.mp z))]
      refine ⟨_, rfl, ?_⟩
      rw [decide_eq_true_eq, hx]
      simp [hc]

theorem hInclude_iff (st : Stack) (hp : st.pad = true) (l : Bytes) :
    ∃ r, hInclude st l = some r ∧ (r = true ↔ IncludesCpp l) := by
  by_cases hform : ∃ w1 w2 q name rest, l = bs "#" ++ w1 ++ bs "include" ++ w2 ++ q :: (name ++ rest) ∧
      (∀ b ∈ w1, isBlank b = true) ∧ w2 ≠ [] ∧ (∀ b ∈ w2, isBlank b = true) ∧ (q = 60 ∨ q = 34) ∧
      (∀ b ∈ name, b ≠ 62 ∧ b ≠ 34) ∧ (∀ b, rest.head? = some b → b = 62 ∨ b = 34)
  · obtain ⟨w1, w2, q, name, rest, rfl, h1, h2, h3, h4, h5, h6⟩ := hform
    obtain ⟨r, hr, hi⟩ := hInclude_form st hp w1 w2 q name rest h1 h2 h3 h4 h5 h6
    refine ⟨r, hr, ?_⟩
    constructor
    · intro h; exact ⟨w1, w2, q, name, rest, rfl, h1, h2, h3, h4, h5, h6, hi.mp h⟩
    · rintro ⟨w1', w2', q', name', rest', he, h1', h2', h3', h4', h5', h6', h7'⟩
      obtain ⟨r', hr', hi'⟩ := hInclude_form st hp w1' w2' q' name' rest' h1' h2' h3' h4' h5' h6'
      rw [← he, hr] at hr'
      cases hr'
      exact hi'.mpr h7'
  · refine ⟨false, ?_, ?_⟩
    · unfold hInclude
      split
      · rename_i h0
        dsimp only
        by_cases h1 : starts ((l.drop 1).dropWhile isBlank) "include" = true
        · rw [if_pos h1]
          obtain ⟨t, ht⟩ := (starts_iff _ _).mp h1
          rw [← ht, show rd (bs "include" ++ t) 7 = some (hd t) from rd_append (bs "include") t]
          simp only [Option.map_some, Option.bind_some]
          by_cases h2 : isBlank (hd t) = true
          · rw [if_pos h2]
            cases t with
            | nil => exact absurd h2 (by decide)
            | cons y t =>
              have e4 : (bs "include" ++ (y :: t)).drop 8 = t := by
                rw [show bs "include" = [105, 110, 99, 108, 117, 100, 101] by decide]; rfl
              rw [e4]
              by_cases h3 : (hd (t.dropWhile isBlank) == 60 || hd (t.dropWhile isBlank) == 34) = true
              · exfalso
                apply hform
                have a1 := List.takeWhile_append_dropWhile (p := isBlank) (l := l.drop 1)
                have a2 := List.takeWhile_append_dropWhile (p := isBlank) (l := t)
                cases hz : t.dropWhile isBlank with
                | nil => rw [hz] at h3; exact absurd h3 (by decide)
                | cons q z =>
                  have a3 := List.takeWhile_append_dropWhile (p := fun c : Byte => c != 62 && c != 34) (l := z)
                  refine ⟨(l.drop 1).takeWhile isBlank, y :: t.takeWhile isBlank, q, z.takeWhile (fun c => c != 62 && c != 34), z.dropWhile (fun c => c != 62 && c != 34), ?_,
                    mem_takeWhile, by simp, ?_, ?_, ?_, ?_⟩
                  · rw [a3]
                    cases l with
                    | nil => exact absurd h0 (by decide)
                    | cons x l =>
                      have hx : x = 35 := by simpa [hd] using h0
                      rw [hx, show bs "#" = [35] by decide]
                      rw [hz] at a2
                      simp only [List.drop_one, List.tail_cons] at a1 ht ⊢
                      rw [← ht] at a1
                      conv => lhs; rw [← a1, ← a2]
                      simp
                  · intro b hb
                    rcases List.mem_cons.mp hb with rfl | hb
                    · exact h2
                    · exact mem_takeWhile b hb
                  · rw [hz] at h3
                    simpa [hd] using h3
                  · intro b hb
                    have := mem_takeWhile b hb
                    simpa using this
                  · intro b hb
                    have hh := List.head?_dropWhile_not (fun c : Byte => c != 62 && c != 34) z
                    rw [hb] at hh
                    simp only [Bool.and_eq_false_iff, bne_eq_false_iff_eq] at hh
                    simpa using hh
              · rw [if_neg h3]
          · rw [if_neg h2]
        · rw [if_neg h1]; rfl
      · rfl
    · simp only [Bool.false_eq_true, false_iff]
      rintro ⟨w1, w2, q, name, rest, h0, h1, h2, h3, h4, h5, h6, _⟩
      exact hform ⟨w1, w2, q, name, rest, h0, h1, h2, h3, h4, h5, h6⟩

/-- C60, `.h`: Objective C iff the file context has the file with the extension "m" in place of "h"; otherwise C++ iff a line includes a
header of C++ or has a word of C++; otherwise C.  (The byte behind the arrays may be overwritten, and `u` is the byte before the line.) -/
theorem C60_h (o : Oracles) (st : Stack) (before u : Byte) (dir base c : Bytes) (disk : Option Bytes) (files : Option (List Bytes))
    (hp : st.pad = true) (hu : st.under = some u) (hb : ∀ b ∈ base, b ≠ 47 ∧ b ≠ 92) :
    let r := detect o st before (source before (dir ++ bs "/" ++ base ++ bs "." ++ bs "h") disk (some c) files)
    let objc := base ++ bs "." ++ bs "m" ∈ files.getD []
    let cpp := ∃ l ∈ textLines c, IncludesCpp (seen l) ∨ ∃ w ∈ cppWords, HasWord u (seen l) w
    (objc → r = some (some "objective_c")) ∧ (¬ objc → cpp → r = some (some "cpp")) ∧ (¬ objc → ¬ cpp → r = some (some "c")) := by
  have h := ext_decides o st before (dir ++ bs "/" ++ base) (bs "h") "h" disk (some c) files (by decide +kernel) (by decide +kernel)
  have hext : (source before (dir ++ bs "/" ++ base ++ bs "." ++ bs "h") disk (some c) files).ext = bs "h" := by
    have := ext_source before (dir ++ bs "/" ++ base) (bs "h") (by decide +kernel) disk (some c) files
    rw [show dir ++ bs "/" ++ base ++ bs "." ++ bs "h" = dir ++ bs "/" ++ base ++ 46 :: bs "h" by simp [bs]]
    exact this
  have hname : (source before (dir ++ bs "/" ++ base ++ bs "." ++ bs "h") disk (some c) files).filename = base ++ bs "." ++ bs "h" := by
    rw [show dir ++ bs "/" ++ base ++ bs "." ++ bs "h" = dir ++ 47 :: (base ++ bs "." ++ bs "h") by simp [bs]]
    refine filename_source before dir _ ?_ disk (some c) files
    intro b hb'
    simp only [List.mem_append] at hb'
    rcases hb' with (hb' | hb') | hb'
    · exact hb b hb'
    · revert b; decide
    · revert b; decide
  have hlast : (base ++ bs "." ++ bs "h").dropLast ++ bs "m" = base ++ bs "." ++ bs "m" := by
    rw [show bs "h" = [104] by decide, List.dropLast_concat]
  have hline : ∀ l, ∃ r, ((hInclude st l).bind fun a =>
          if a then some (Except.error (some "cpp"))
          else (hWords st (l.length + 1) st.under l).bind fun w =>
            some (if w then .error (some "cpp") else .ok ())) = some (if r then Except.error (some "cpp") else Except.ok ()) ∧
      (r = true ↔ IncludesCpp l ∨ ∃ w ∈ cppWords, HasWord u l w) := by
    intro l
    obtain ⟨a, a1, a2⟩ := hInclude_iff st hp l
    obtain ⟨w, w1, w2⟩ := hWords_iff st hp (l.length + 1) u l (Nat.lt_succ_self _)
    refine ⟨a || w, ?_, by rw [Bool.or_eq_true, a2, w2]⟩
    rw [a1, hu, w1]
    cases a <;> cases w <;> rfl
  obtain ⟨g, hg⟩ : ∃ g : Bytes → Bool, ∀ l, ((hInclude st l).bind fun a =>
          if a then some (Except.error (some "cpp"))
          else (hWords st (l.length + 1) st.under l).bind fun w =>
            some (if w then .error (some "cpp") else .ok ())) = some (if g l then Except.error (some "cpp") else Except.ok ()) ∧
      (g l = true ↔ IncludesCpp l ∨ ∃ w ∈ cppWords, HasWord u l w) :=
    ⟨fun l => (hline l).choose, fun l => (hline l).choose_spec⟩
  have hl := lineLoop_eq st (fun (_ : Unit) line =>
        (hInclude st line).bind fun a =>
          if a then some (Except.error (some "cpp"))
          else (hWords st (line.length + 1) st.under line).bind fun w =>
            some (if w then .error (some "cpp") else .ok ())) (fun _ => rfl) (c.length + 1) c () (Nat.lt_succ_self _) (.inl hp)
  rw [overLines_unit g (some "cpp") _ (fun _ l => (hg l).1)] at hl
  simp only [h, disambiguate, Detector.h, source_text, hl, hext, hname, hlast, hp, if_true, Option.bind_some]
  have e1 : ((textLines c).any fun l => g (seen l)) = true ↔ ∃ l ∈ textLines c, IncludesCpp (seen l) ∨ ∃ w ∈ cppWords, HasWord u (seen l) w := by
    simp only [List.any_eq_true, (hg _).2]
  have e2 : ((source before (dir ++ bs "/" ++ base ++ bs "." ++ bs "h") disk (some c) files).filenames.getD []).any
      (fun f => decide (f = base ++ bs "." ++ bs "m")) = true ↔ base ++ bs "." ++ bs "m" ∈ files.getD [] := by
    simp only [List.any_eq_true, decide_eq_true_eq, exists_eq_right]; rfl
  rw [← e1, ← e2]
  generalize ((textLines c).any fun l => g (seen l)) = x
  generalize (((source before (dir ++ bs "/" ++ base ++ bs "." ++ bs "h") disk (some c) files).filenames.getD []).any
      fun f => decide (f = base ++ bs "." ++ bs "m")) = y
  cases x <;> cases y <;> simp

/-- The hypotheses and both kinds of evidence are met. -/
example : IncludesCpp (seen (bs "# include <vector>")) ∧ IncludesCpp (seen (bs "#include \"a.hpp\" // b")) ∧
    (∃ l ∈ textLines (bs "int x;\nclass A;\n"), ∃ w ∈ cppWords, HasWord 0 (seen l) w) ∧ ¬ HasWord 0 (bs "subclass x") (bs "class") := by
  refine ⟨⟨bs " ", bs " ", 60, bs "vector", bs ">", by decide +kernel, by decide, by decide, by decide, by decide, by decide, by decide, .inl (by decide +kernel)⟩,
    ⟨[], bs " ", 34, bs "a.hpp", bs "\" // b", by decide +kernel, by decide, by decide, by decide, by decide, by decide, by decide,
      .inr ⟨bs "a", bs "hpp", by decide +kernel, by decide +kernel⟩⟩,
    ⟨bs "class A;", by decide +kernel, bs "class", by decide +kernel, [], bs " A;", by decide +kernel, by decide, by decide⟩, ?_⟩
  intro hx
  obtain ⟨r, h1, h2⟩ := hWords_iff ⟨true, some 0⟩ rfl 11 0 (bs "subclass x") (by decide)
  have h3 : hWords ⟨true, some 0⟩ 11 (some 0) (bs "subclass x") = some false := by decide +kernel
  rw [h3] at h1
  cases h1
  exact absurd (h2.mpr ⟨bs "class", by decide +kernel, hx⟩) (by decide)

end Ohcount.Detector
