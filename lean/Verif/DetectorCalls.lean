import Verif.DetectorEvidence
/-
C103: what detecting a language obtains from libmagic, PCRE and the library itself, and what of
it is given back.
-/

namespace Ohcount.Detector

open Ohcount Ohcount.Tables Ohcount.Diff

/-- The calls by which detection obtains and gives back what must be given back: `magic_open`
and `magic_close` (src/detector.c:79, 113), `pcre_compile` (src/detector.c:914, 922, 938; there
is no `pcre_free` in the file), `ohcount_sourcefile_new` and `ohcount_sourcefile_free`
(src/detector.c:665, 672). The memory of the contents is that of C74 and C76. -/
inductive Call where
  | openMagic
  | closeMagic
  | compile
  | newFile
  | freeFile
  deriving DecidableEq, Repr

/-- The calls of `detect_language_magic`, src/detector.c:76-116. Without a place on disk and
without contents the function returns at src/detector.c:100, before `magic_close`. Failures of
libmagic end the process and are not modelled. -/
def magicCalls (i : Input) : List Call :=
  match i.diskpath with
  | some _ => [.openMagic, .closeMagic]
  | none =>
    match i.contents with
    | none => [.openMagic]
    | some _ => [.openMagic, .closeMagic]

/-- The calls before disambiguation, src/detector.c:120-212: only detection by libmagic makes
any, and it is reached when extension, mode line and file name say nothing. -/
def candidateCalls (st : Stack) (i : Input) : List Call :=
  match byExt i.ext with
  | some _ => []
  | none =>
    match modeline st i with
    | some (.ok none) =>
      match fromFilename i.filename with
      | some _ => []
      | none => magicCalls i
    | _ => []

/-- The calls of `disambiguate_pp`, src/detector.c:902-929: the second expression is compiled
when the first one finds nothing. -/
def ppCalls (o : Oracles) (i : Input) : List Call :=
  match i.contents with
  | none => []
  | some c => if o.puppetKeyword (firstBytes 10000 c) then [.compile] else [.compile, .compile]

/-- The calls of `disambiguate_pl`, src/detector.c:931-949. -/
def plCalls (i : Input) : List Call :=
  match i.contents with
  | none => []
  | some _ => [.compile]

/-- The calls of the disambiguating functions; only those of `.in`, `.pl` and `.pp` make any. -/
def disambiguateCalls (o : Oracles) (before : Byte) (rec : Input → List Call) (id : String) (i : Input) : List Call :=
  if id = "in" then
    -- `disambiguate_in`, src/detector.c:643-675, as in `disambiguate`
    let len := i.filepath.length
    let dot := (i.filepath.takeWhile fun c => c != 46).length
    if len < 3 then []
    else if dot = len ∨ dot ≤ len - 3 then
      match i.contents with
      | none => []
      | some c => .newFile :: (rec (undecorated before i c (i.filepath.take (len - 3))) ++ [.freeFile])
    else []
  else if id = "pl" then plCalls i
  else if id = "pp" then ppCalls o i
  else []

/-- The calls of `ohcount_detect_language`, src/detector.c:120-225, in order, for a detection
that is defined (`detectN`). -/
def callsN (o : Oracles) (st : Stack) (before : Byte) : Nat → Input → List Call
  | 0, _ => []
  | n + 1, i =>
    candidateCalls st i ++
      match candidate o st i with
      | some (.ok (some (.ambiguous id))) => disambiguateCalls o before (callsN o st before n) id i
      | _ => []

/-- The calls of detecting the language of one file. -/
def calls (o : Oracles) (st : Stack) (before : Byte) (i : Input) : List Call :=
  callsN o st before (i.filepath.length + 1) i

/-- The libmagic handles that were opened and not closed. -/
def handles (l : List Call) : Int := l.count .openMagic - l.count .closeMagic
/-- The compiled expressions that were not freed: nothing frees one. -/
def expressions (l : List Call) : Nat := l.count .compile
/-- The source files that were made and not freed. -/
def files (l : List Call) : Int := l.count .newFile - l.count .freeFile

/-- Everything obtained was given back. -/
def Clean (l : List Call) : Prop := handles l = 0 ∧ expressions l = 0 ∧ files l = 0

instance (l : List Call) : Decidable (Clean l) := by unfold Clean; infer_instance

theorem handles_append (a b : List Call) : handles (a ++ b) = handles a + handles b := by
  simp only [handles, List.count_append]; omega
theorem expressions_append (a b : List Call) : expressions (a ++ b) = expressions a + expressions b := List.count_append
theorem files_append (a b : List Call) : files (a ++ b) = files a + files b := by
  simp only [files, List.count_append]; omega

/-- C103 in full: detecting the language of a file gives back everything it obtains. -/
def C103_full : Prop :=
  ∀ (o : Oracles) (st : Stack) (before : Byte) (i : Input) (l : Option String),
    detect o st before i = some l → Clean (calls o st before i)

theorem magic_clean (i : Input) (h : i.contents ≠ none ∨ i.diskpath ≠ none) : Clean (magicCalls i) := by
  unfold magicCalls
  split
  · decide
  · split
    · next h1 h2 => simp_all
    · decide

theorem candidate_clean (st : Stack) (i : Input) (h : i.contents ≠ none ∨ i.diskpath ≠ none) : Clean (candidateCalls st i) := by
  unfold candidateCalls
  split
  · decide
  · split
    · split
      · decide
      · exact magic_clean i h
    · decide

theorem Clean.append {a b : List Call} (ha : Clean a) (hb : Clean b) : Clean (a ++ b) := by
  unfold Clean at *
  rw [handles_append, expressions_append, files_append]
  omega

theorem Clean.undecorated {l : List Call} : Clean (.newFile :: (l ++ [.freeFile])) ↔ Clean l := by
  unfold Clean handles expressions files
  simp only [List.count_cons, List.count_append, List.count_nil]
  simp
  omega

/-- What a file may leave behind whose contents can be read. -/
def AtMostTwo (l : List Call) : Prop := handles l = 0 ∧ files l = 0 ∧ expressions l ≤ 2

theorem AtMostTwo.after {a b : List Call} (ha : Clean a) (hb : AtMostTwo b) : AtMostTwo (a ++ b) := by
  unfold Clean at ha; unfold AtMostTwo at *
  rw [handles_append, expressions_append, files_append]
  omega

theorem AtMostTwo.undecorated {l : List Call} (h : AtMostTwo l) : AtMostTwo (.newFile :: (l ++ [.freeFile])) := by
  revert h
  unfold AtMostTwo handles expressions files
  simp only [List.count_cons, List.count_append, List.count_nil]
  simp
  omega

theorem calls_readable (o : Oracles) (st : Stack) (before : Byte) : ∀ (n : Nat) (i : Input), i.contents ≠ none →
    AtMostTwo (callsN o st before n i)
  | 0, _, _ => by show AtMostTwo []; unfold AtMostTwo; decide
  | n + 1, i, h => by
    unfold callsN
    refine AtMostTwo.after (candidate_clean st i (.inl h)) ?_
    have hnil : AtMostTwo [] := by unfold AtMostTwo; decide
    split
    · unfold disambiguateCalls
      split
      · dsimp only
        split
        · exact hnil
        split
        · split
          · exact hnil
          · exact (calls_readable o st before n _ (by simp [undecorated])).undecorated
        · exact hnil
      · split
        · unfold plCalls
          split
          · exact hnil
          · unfold AtMostTwo; decide
        · split
          · unfold ppCalls
            split
            · exact hnil
            · split <;> (unfold AtMostTwo; decide)
          · exact hnil
    · exact hnil

/-- C103, every file that can be read: the handle of libmagic is closed and the file made for a
name without ".in" is freed; at most two compiled expressions are left. -/
theorem C103_readable_partial (o : Oracles) (st : Stack) (before : Byte) (i : Input) (h : i.contents ≠ none) :
    handles (calls o st before i) = 0 ∧ files (calls o st before i) = 0 ∧ expressions (calls o st before i) ≤ 2 :=
  calls_readable o st before _ i h

theorem pl_language (o : Oracles) (i : Input) {c : Bytes} (h : i.contents = some c) :
    pl o i = some "perl" ∨ pl o i = some "prolog" := by
  unfold pl; rw [h]; dsimp only; split
  · exact .inl rfl
  · split
    · exact .inr rfl
    · exact .inl rfl

theorem pp_language (o : Oracles) (i : Input) {c : Bytes} (h : i.contents = some c) :
    pp o i = some "puppet" ∨ pp o i = some "pascal" := by
  unfold pp; rw [h]; dsimp only; split
  · exact .inl rfl
  · split
    · exact .inl rfl
    · exact .inr rfl

theorem calls_clean (o : Oracles) (st : Stack) (before : Byte) : ∀ (n : Nat) (i : Input) (l : Option String),
    i.contents ≠ none → detectN o st before n i = some l →
    l ∉ [some "perl", some "prolog", some "puppet", some "pascal"] → Clean (callsN o st before n i)
  | 0, _, _, _, _, _ => by show Clean []; decide
  | n + 1, i, l, h, hd, hl => by
    obtain ⟨c, hc⟩ := Option.ne_none_iff_exists'.mp h
    unfold callsN
    refine (candidate_clean st i (.inl h)).append ?_
    have hnil : Clean [] := by decide
    split
    · next id hcand =>
      have hd' : disambiguate o st before (detectN o st before n) id i = some l := by
        rw [detectN, hcand] at hd; exact hd
      unfold disambiguateCalls
      split
      · next hid =>
        subst hid
        dsimp only
        split
        · exact hnil
        split
        · next hdot =>
          rw [hc]
          refine Clean.undecorated.mpr ?_
          refine calls_clean o st before n _ l (by simp [undecorated]) ?_ hl
          change (if i.filepath.length < 3 then none
            else if (i.filepath.takeWhile fun c => c != 46).length = i.filepath.length ∨
                (i.filepath.takeWhile fun c => c != 46).length ≤ i.filepath.length - 3 then
              if st.pad = true then
                match i.contents with
                | none => some none
                | some c => detectN o st before n (undecorated before i c (i.filepath.take (i.filepath.length - 3)))
              else none
            else some none) = some l at hd'
          split at hd'
          · cases hd'
          · split at hd'
            · rw [hc] at hd'; exact hd'
            · cases hd'
        · exact hnil
      · split
        · next hid =>
          subst hid
          have : some (pl o i) = some l := hd'
          cases this
          rcases pl_language o i hc with e | e <;> (rw [e] at hl; simp at hl)
        · split
          · next hid =>
            subst hid
            have : some (pp o i) = some l := hd'
            cases this
            rcases pp_language o i hc with e | e <;> (rw [e] at hl; simp at hl)
          · exact hnil
    · exact hnil

/-- C103, the other languages: detecting the language of a file that can be read gives back
everything when the answer is none of Perl, Prolog, Puppet and Pascal. -/
theorem C103_other_languages (o : Oracles) (st : Stack) (before : Byte) (i : Input) (l : Option String) (h : i.contents ≠ none)
    (hd : detect o st before i = some l) (hl : l ∉ [some "perl", some "prolog", some "puppet", some "pascal"]) :
    Clean (calls o st before i) :=
  calls_clean o st before _ i l h hd hl

/-- A file that is given to libmagic, and one whose language is that of the name without ".in". -/
example : calls mute ⟨true, some 0⟩ 0 (source 0 (bs "src/a") none (some (bs "x")) none) = [.openMagic, .closeMagic] ∧
    calls mute ⟨true, some 0⟩ 0 (source 0 (bs "src/a.h.in") none (some (bs "int x;")) none) = [.newFile, .freeFile] ∧
    detect mute ⟨true, some 0⟩ 0 (source 0 (bs "src/a") none (some (bs "x")) none) = some none := by
  decide +kernel

/-- The calls for a file whose extension is ambiguous. -/
theorem calls_ext (o : Oracles) (st : Stack) (before : Byte) (stem e : Bytes) (v : ExtVal) (disk : Option Bytes)
    (c : Option Bytes) (fs : Option (List Bytes)) (he : plain e) (hv : (e, v) ∈ extensions) :
    calls o st before (source before (stem ++ 46 :: e) disk c fs) =
      match v with
      | .ambiguous id => disambiguateCalls o before (callsN o st before (stem ++ 46 :: e).length) id (source before (stem ++ 46 :: e) disk c fs)
      | _ => [] := by
  have hb : byExt (source before (stem ++ 46 :: e) disk c fs).ext = some v := by
    rw [ext_source before stem e he, byExt, fromExt_mem hv]
  show candidateCalls st _ ++ _ = _
  rw [show candidateCalls st (source before (stem ++ 46 :: e) disk c fs) = [] by unfold candidateCalls; rw [hb],
    candidate_of_ext o st _ hb, List.nil_append]
  cases v <;> rfl

/-- C103, a ".pl" file that can be read leaves one compiled expression behind, whatever its
contents and its language. -/
theorem C103_pl (o : Oracles) (st : Stack) (before : Byte) (stem c : Bytes) (disk : Option Bytes) (fs : Option (List Bytes)) :
    calls o st before (source before (stem ++ bs ".pl") disk (some c) fs) = [.compile] := by
  rw [show stem ++ bs ".pl" = stem ++ 46 :: bs "pl" from rfl,
    calls_ext o st before stem (bs "pl") (.ambiguous "pl") disk (some c) fs (by decide +kernel) (by decide +kernel)]
  rfl

/-- C103, a ".pp" file that can be read leaves one compiled expression behind if the first
expression finds a keyword and two otherwise. -/
theorem C103_pp (o : Oracles) (st : Stack) (before : Byte) (stem c : Bytes) (disk : Option Bytes) (fs : Option (List Bytes)) :
    calls o st before (source before (stem ++ bs ".pp") disk (some c) fs) =
      if o.puppetKeyword ((cstr c).take 10000) then [.compile] else [.compile, .compile] := by
  rw [show stem ++ bs ".pp" = stem ++ 46 :: bs "pp" from rfl,
    calls_ext o st before stem (bs "pp") (.ambiguous "pp") disk (some c) fs (by decide +kernel) (by decide +kernel)]
  rfl

/-- C103, a name that says nothing: without contents and without a place on disk the handle of
libmagic stays open. -/
theorem C103_unreadable (o : Oracles) (st : Stack) (before : Byte) (path : Bytes) (fs : Option (List Bytes))
    (he : byExt (source before path none none fs).ext = none)
    (hf : fromFilename (source before path none none fs).filename = none) :
    detect o st before (source before path none none fs) = some none ∧
      calls o st before (source before path none none fs) = [.openMagic] := by
  have hm : modeline st (source before path none none fs) = some (.ok none) := rfl
  have hk : candidate o st (source before path none none fs) = some (.ok none) := by
    unfold candidate; rw [he, hm]; dsimp only [Option.bind_some]; rw [hf]; rfl
  have hg : candidateCalls st (source before path none none fs) = [.openMagic] := by
    unfold candidateCalls; rw [he, hm]; dsimp only; rw [hf]; rfl
  constructor
  · show (candidate o st _).bind _ = _
    rw [hk]; rfl
  · show candidateCalls st _ ++ _ = _
    rw [hk, hg]; rfl

example : byExt (source 0 (bs "src/nosuch") none none none).ext = none ∧
    fromFilename (source 0 (bs "src/nosuch") none none none).filename = none := by
  decide +kernel

theorem disambiguateCalls_rec (o : Oracles) (before : Byte) (r1 r2 : Input → List Call) (id : String) (i : Input)
    (h : ∀ j : Input, j.filepath.length + 3 = i.filepath.length → r1 j = r2 j) :
    disambiguateCalls o before r1 id i = disambiguateCalls o before r2 id i := by
  unfold disambiguateCalls
  by_cases e : id = "in"
  · rw [if_pos e, if_pos e]
    dsimp only
    by_cases h3 : i.filepath.length < 3
    · rw [if_pos h3, if_pos h3]
    rw [if_neg h3, if_neg h3]
    have : ∀ c, r1 (undecorated before i c (i.filepath.take (i.filepath.length - 3))) =
        r2 (undecorated before i c (i.filepath.take (i.filepath.length - 3))) := by
      intro c
      refine h _ ?_
      simp only [undecorated, List.length_take]; omega
    simp only [this]
  · rw [if_neg e, if_neg e]

theorem callsN_enough (o : Oracles) (st : Stack) (before : Byte) : ∀ (k : Nat) (n m : Nat) (i : Input), i.filepath.length ≤ k →
    i.filepath.length < n → i.filepath.length < m → callsN o st before n i = callsN o st before m i := by
  intro k
  induction k with
  | zero =>
    intro n m i hk hn hm
    obtain ⟨n, rfl⟩ := Nat.exists_eq_succ_of_ne_zero (show n ≠ 0 by omega)
    obtain ⟨m, rfl⟩ := Nat.exists_eq_succ_of_ne_zero (show m ≠ 0 by omega)
    simp only [callsN]
    congr 1
    split <;> try rfl
    exact disambiguateCalls_rec o before _ _ _ _ (fun j hj => by omega)
  | succ k ih =>
    intro n m i hk hn hm
    obtain ⟨n, rfl⟩ := Nat.exists_eq_succ_of_ne_zero (show n ≠ 0 by omega)
    obtain ⟨m, rfl⟩ := Nat.exists_eq_succ_of_ne_zero (show m ≠ 0 by omega)
    simp only [callsN]
    congr 1
    split <;> try rfl
    exact disambiguateCalls_rec o before _ _ _ _ (fun j hj => ih n m j (by omega) (by omega) (by omega))

/-- C103, ".in": a file `stem.in` leaves behind what the file `stem` with the same contents does,
and the file made for it is freed. -/
theorem C103_in (o : Oracles) (st : Stack) (before : Byte) (stem c : Bytes) (disk : Option Bytes) (fs : Option (List Bytes)) :
    calls o st before (source before (stem ++ bs ".in") disk (some c) fs) =
      .newFile :: (calls o st before (source before stem disk (some (cstr c)) fs) ++ [.freeFile]) := by
  rw [show stem ++ bs ".in" = stem ++ 46 :: bs "in" from rfl,
    calls_ext o st before stem (bs "in") (.ambiguous "in") disk (some c) fs (by decide +kernel) (by decide +kernel)]
  have hlen : (stem ++ 46 :: bs "in").length = stem.length + 3 := by
    simp [show (bs "in").length = 2 by decide]
  have hdot := first_dot_le stem (bs "in")
  have htake : (stem ++ 46 :: bs "in").take stem.length = stem := List.take_left
  show (if (stem ++ 46 :: bs "in").length < 3 then [] else if ((stem ++ 46 :: bs "in").takeWhile fun c => c != 46).length = (stem ++ 46 :: bs "in").length ∨
      ((stem ++ 46 :: bs "in").takeWhile fun c => c != 46).length ≤ (stem ++ 46 :: bs "in").length - 3 then
    Call.newFile :: (callsN o st before (stem ++ 46 :: bs "in").length
      { filepath := (stem ++ 46 :: bs "in").take ((stem ++ 46 :: bs "in").length - 3),
        parts := splitPath before ((stem ++ 46 :: bs "in").take ((stem ++ 46 :: bs "in").length - 3)), diskpath := disk,
        contents := some (cstr c), filenames := fs } ++ [.freeFile]) else []) = _
  rw [if_neg (by omega), if_pos (by omega), hlen, show stem.length + 3 - 3 = stem.length by omega, htake]
  congr 2
  exact callsN_enough o st before stem.length _ _ (source before stem disk (some (cstr c)) fs) (Nat.le_refl _)
    (by show stem.length < _; omega) (Nat.lt_succ_self _)

/-- Both cases of ".pp" and a ".pp.in" file. -/
example : calls { mute with puppetKeyword := fun c => c.isPrefixOf (bs "ensure => x") } ⟨true, some 0⟩ 0
      (source 0 (bs "a.pp") none (some (bs "ensure => x")) none) = [.compile] ∧
    calls mute ⟨true, some 0⟩ 0 (source 0 (bs "a.pp") none (some (bs "ensure => x")) none) = [.compile, .compile] ∧
    calls mute ⟨true, some 0⟩ 0 (source 0 (bs "a.pp.in") none (some (bs "begin")) none) =
      [.newFile, .compile, .compile, .freeFile] := by
  decide +kernel

/-- C103 in full is false: a Perl file leaves an expression behind. -/
theorem C103_negation : ¬ C103_full := by
  intro h
  have := h mute ⟨true, some 0⟩ 0 (source 0 (bs "a.pl") none (some (bs "x")) none) (some "perl") (by decide +kernel)
  revert this
  decide +kernel

/-- C103, a history: after detecting the languages of `n` ".pl" files at least `n` compiled
expressions are held, so what a process holds has no bound. -/
theorem C103_no_bound (o : Oracles) (st : Stack) (before : Byte) (paths : List (Bytes × Bytes)) :
    expressions (paths.flatMap fun p => calls o st before (source before (p.1 ++ bs ".pl") none (some p.2) none)) = paths.length := by
  induction paths with
  | nil => rfl
  | cons p ps ih =>
    rw [List.flatMap_cons, expressions_append, ih, C103_pl]
    show 1 + ps.length = ps.length + 1
    omega

/-- C103, a history of readable files of other languages: nothing is held after it. -/
theorem C103_history (o : Oracles) (st : Stack) (before : Byte) (is : List Input)
    (h : ∀ i ∈ is, i.contents ≠ none ∧ ∃ l, detect o st before i = some l ∧
      l ∉ [some "perl", some "prolog", some "puppet", some "pascal"]) :
    Clean (is.flatMap (calls o st before)) := by
  induction is with
  | nil => show Clean []; decide
  | cons i is ih =>
    rw [List.flatMap_cons]
    obtain ⟨h1, l, h2, h3⟩ := h i (.head _)
    exact (C103_other_languages o st before i l h1 h2 h3).append (ih fun j hj => h j (.tail _ hj))

end Ohcount.Detector
