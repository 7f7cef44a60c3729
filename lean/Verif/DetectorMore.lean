/-
More properties of language detection: C50 (binary file names), C51 (well-known file
names), C52 (markers in the contents), C53 (mode lines), C54 (libmagic descriptions).
-/
import Verif.DetectorSafety

namespace Ohcount.Detector

open Ohcount Ohcount.Tables Ohcount.Diff

set_option maxRecDepth 20000

/-! ### Specification -/

/-- `text` contains `w`. -/
def Occurs (w text : Bytes) : Prop := ∃ a b, text = a ++ w ++ b

/-- The bytes of `w` in any case, followed by at least one byte more. -/
def OccursBefore (w : Bytes → Prop) (text : Bytes) : Prop := ∃ a x b, text = a ++ x ++ b ∧ w x ∧ b ≠ []

/-- The text without leading blanks, tabs and line ends. -/
def trim (text : Bytes) : Bytes := text.dropWhile fun b => isBlank b || isNl b

theorem occurs_cons {w : Bytes} {b : Byte} {p : Bytes} :
    Occurs w (b :: p) ↔ w <+: (b :: p) ∨ Occurs w p := by
  constructor
  · rintro ⟨x, y, h⟩
    cases x with
    | nil => exact Or.inl ⟨y, h.symm⟩
    | cons c x =>
      simp only [List.cons_append, List.cons.injEq] at h
      exact Or.inr ⟨x, y, h.2⟩
  · rintro (⟨y, h⟩ | ⟨x, y, h⟩)
    · exact ⟨[], y, h.symm⟩
    · exact ⟨b :: x, y, by rw [h]; rfl⟩

theorem not_occurs_nil {w : Bytes} (hw : w ≠ []) : ¬ Occurs w [] := by
  rintro ⟨a, b, h⟩
  have := congrArg List.length h
  simp only [List.length_append, List.length_nil] at this
  exact hw (List.length_eq_zero_iff.mp (by omega))

theorem prefix_cstr {w p : Bytes} (hz : (0 : Byte) ∉ w) : w <+: cstr p ↔ w <+: p := by
  induction w generalizing p with
  | nil => simp
  | cons a w ih =>
    have ha : a ≠ 0 := fun h => hz (by simp [h])
    have hw : (0 : Byte) ∉ w := fun h => hz (List.mem_cons_of_mem _ h)
    cases p with
    | nil => simp [cstr]
    | cons c p =>
      simp only [cstr, List.takeWhile_cons]
      split
      · rw [List.cons_prefix_cons, List.cons_prefix_cons]
        exact and_congr_right fun _ => ih hw
      · rename_i hc
        simp only [bne_iff_ne, ne_eq, Decidable.not_not] at hc
        constructor
        · intro h; exact absurd h (by simp)
        · intro h
          rw [List.cons_prefix_cons] at h
          exact absurd (h.1.trans hc) ha

/-- `strstr` finds the string iff it occurs before the first NUL. -/
theorem strstr_isSome {s : String} (h0 : bs s ≠ []) (hz : (0 : Byte) ∉ bs s) (p : Bytes) :
    (strstr s p).isSome = true ↔ Occurs (bs s) (cstr p) := by
  induction p with
  | nil =>
    simp only [strstr, cstr, List.takeWhile_nil]
    constructor
    · intro h; cases h
    · exact fun h => absurd h (not_occurs_nil h0)
  | cons c p ih =>
    simp only [strstr]
    by_cases hp : starts (c :: p) s = true
    · rw [if_pos hp]
      have h1 := (prefix_cstr hz).mpr (List.isPrefixOf_iff_prefix.mp hp)
      obtain ⟨t, ht⟩ := h1
      exact ⟨fun _ => ⟨[], t, ht.symm⟩, fun _ => rfl⟩
    · rw [if_neg hp]
      have hnp : ¬ bs s <+: c :: p := fun h => hp (List.isPrefixOf_iff_prefix.mpr h)
      by_cases hc : c = 0
      · rw [if_pos hc]
        have : cstr (c :: p) = [] := by simp [cstr, hc]
        rw [this]
        constructor
        · intro h; cases h
        · exact fun h => absurd h (not_occurs_nil h0)
      · rw [if_neg hc, ih]
        have : cstr (c :: p) = c :: cstr p := by simp [cstr, hc]
        rw [this, occurs_cons]
        constructor
        · exact Or.inr
        · rintro (h | h)
          · exact absurd ((prefix_cstr hz).mp (by rw [this]; exact h)) hnp
          · exact h

/-! ### C50: binary file names -/

theorem reverse_ext (stem e : Bytes) (he : ∀ b ∈ e, b ≠ 46) :
    (((stem ++ 46 :: e).reverse.takeWhile fun c => c != 46).reverse) = e := by
  rw [List.reverse_append, List.reverse_cons, List.append_assoc]
  rw [List.takeWhile_append_of_pos (by intro x hx; simpa using he x (List.mem_reverse.mp hx))]
  simp

/-- C50: a file name is binary iff what follows its last dot is, as it is or in lower case, a
binary extension; a name without a dot is not. (The machine must tolerate the byte
stored behind the array, see `C31_negation`.) -/
theorem C50_binary_name (st : Stack) (hp : st.pad = true) (stem e : Bytes) (he : ∀ b ∈ e, b ≠ 46) :
    isBinaryFilename st (stem ++ bs "." ++ e) = some (decide (byExt e = some .binary)) ∧
    (∀ name : Bytes, (∀ b ∈ name, b ≠ 46) → isBinaryFilename st name = some false) := by
  constructor
  · rw [show stem ++ bs "." ++ e = stem ++ 46 :: e by simp [bs]]
    simp only [isBinaryFilename, reverse_ext stem e he]
    rw [if_pos (by simp only [List.length_append, List.length_cons]; omega), if_pos hp]
    rcases h1 : fromExt e with _ | v
    · rcases h2 : fromExt (e.map tolower) with _ | v
      · simp [byExt, h1, h2]
      · simp [byExt, h1, h2]
    · simp [byExt, h1]
  · intro name hn
    simp only [isBinaryFilename]
    rw [if_neg]
    have : (name.reverse.takeWhile fun c => c != 46) = name.reverse := by
      have := List.takeWhile_append_of_pos (p := fun c : Byte => c != 46) (l₁ := name.reverse) (l₂ := [])
        (by intro x hx; simpa using hn x (List.mem_reverse.mp hx))
      simpa using this
    rw [this]
    simp

/-- C50: a file whose name is called binary has no language, whatever its contents. -/
theorem C50_agrees (o : Oracles) (st st' : Stack) (hp : st.pad = true) (before : Byte) (stem e : Bytes)
    (disk contents : Option Bytes) (files : Option (List Bytes)) (he : plain e)
    (hb : isBinaryFilename st (stem ++ bs "." ++ e) = some true) :
    detect o st' before (source before (stem ++ bs "." ++ e) disk contents files) = some none := by
  rw [(C50_binary_name st hp stem e (fun b h => (he b h).1)).1] at hb
  simp only [Option.some.injEq, decide_eq_true_eq] at hb
  rw [show stem ++ bs "." ++ e = stem ++ 46 :: e by simp [bs]]
  have hx : byExt (source before (stem ++ 46 :: e) disk contents files).ext = some .binary := by
    rw [ext_source before stem e he, hb]
  rw [detect, detectN, candidate_of_ext o _ _ hx]
  rfl

example : isBinaryFilename ⟨true, none⟩ (bs "logo.PNG") = some true := by decide +kernel
example : isBinaryFilename ⟨true, none⟩ (bs "a.png.c") = some false := by decide +kernel

/-! ### C51: well-known file names -/

theorem firstLine_spec (st : Stack) : ∀ (n : Nat) (p mem : Bytes), p.length < n → Fits st p → mem ≠ [] →
    ∃ mem', firstLine st n p mem = some mem' ∧ mem' ≠ [] ∧
      (cstr mem' = cstr mem ∨ ∃ a b, p = a ++ cstr mem' ++ b) := by
  intro n
  induction n with
  | zero => intro p _ h; omega
  | succ n ih =>
    intro p mem hn hf hm
    unfold firstLine
    split
    · exact ⟨mem, rfl, hm, Or.inl rfl⟩
    · rename_i hp
      have hset : ∃ mem', setLine st mem (p.takeWhile notNl) = some mem' ∧ mem' ≠ [] ∧
          cstr mem' = cstr ((p.takeWhile notNl).take 81) := by
        unfold setLine
        rw [if_pos]
        · refine ⟨_, rfl, by simp, ?_⟩
          generalize hs : (p.takeWhile notNl).take 81 = raw
          have h1 : ∀ (k : Nat) (t : Bytes), cstr (cstr raw ++ List.replicate k 0 ++ [0] ++ t) = cstr raw := by
            intro k t
            unfold cstr
            rw [List.append_assoc, List.append_assoc, List.takeWhile_append_of_pos
              (fun x hx => (List.all_eq_true.mp List.all_takeWhile) x hx)]
            cases k with
            | zero => simp
            | succ k => simp [List.replicate_succ]
          exact h1 _ _
        · rcases hf with h | h
          · exact Or.inr h
          · exact Or.inl h.line
      obtain ⟨mem', h1, h2, h3⟩ := hset
      rw [h1, Option.bind_some]
      have hinfix : ∃ a b, p = a ++ cstr mem' ++ b := by
        rw [h3]
        have t1 : cstr ((p.takeWhile notNl).take 81) <+: (p.takeWhile notNl).take 81 := List.takeWhile_prefix _
        have t2 := (t1.trans (List.take_prefix _ _)).trans (List.takeWhile_prefix notNl (l := p))
        obtain ⟨b, hb⟩ := t2
        exact ⟨[], b, by rw [List.nil_append]; exact hb.symm⟩
      split
      · obtain ⟨m2, g1, g2, g3⟩ := ih ((p.dropWhile notNl).dropWhile isNl) mem' (by have := rest_shorter hp; omega)
          (hf.imp_right fun h => h.suffix (rest_suffix p)) h2
        refine ⟨m2, g1, g2, Or.inr ?_⟩
        rcases g3 with g3 | ⟨a, b, g3⟩
        · rw [g3]; exact hinfix
        · obtain ⟨t, ht⟩ := rest_suffix p
          exact ⟨t ++ a, b, by rw [← ht, g3]; simp⟩
      · exact ⟨mem', rfl, h2, Or.inr hinfix⟩

/-- Without "-*-" in the contents there is no mode line. -/
theorem modeline_none (st : Stack) (i : Input) (hf : Fits st i.text) (hn : ¬ Occurs (bs "-*-") i.text) :
    modeline st i = some (.ok none) := by
  obtain ⟨mem, h1, _, h3⟩ := firstLine_spec st (i.text.length + 1) i.text (List.replicate 81 0) (by omega) hf (by decide)
  rw [modeline, h1, Option.bind_some]
  have : strstr "-*-" mem = none := by
    rw [← Option.not_isSome_iff_eq_none, strstr_isSome (by decide +kernel) (by decide +kernel)]
    rintro ⟨a, b, h⟩
    rcases h3 with h3 | ⟨x, y, h3⟩
    · rw [h3] at h
      have hz : cstr (List.replicate 81 0) = [] := by decide +kernel
      rw [hz] at h
      exact not_occurs_nil (by decide +kernel) ⟨a, b, h⟩
    · refine hn ⟨x ++ a, b ++ y, ?_⟩
      rw [h3, h]; simp
  rw [this]

theorem scanBack_plain (stop : Byte → Bool) (dir name : Bytes) (sep : Byte) (hsep : stop sep = true)
    (hn : ∀ b ∈ name, stop b = false) :
    ∀ k, k ≤ name.length → scanBack stop (dir ++ sep :: name) (dir.length + 1 + k) = dir.length + 1 := by
  intro k
  induction k with
  | zero =>
    intro _
    show scanBack stop (dir ++ sep :: name) (dir.length + 1) = _
    unfold scanBack
    simp [hsep]
  | succ k ih =>
    intro hk
    show scanBack stop (dir ++ sep :: name) (dir.length + 1 + k + 1) = _
    unfold scanBack
    have hg : (dir ++ sep :: name)[dir.length + 1 + k]? = some (name[k]'(by omega)) := by
      rw [List.getElem?_append_right (by omega)]
      have : dir.length + 1 + k - dir.length = k + 1 := by omega
      rw [this, List.getElem?_cons_succ, List.getElem?_eq_getElem]
    rw [hg]
    simp only [hn _ (List.getElem_mem _)]
    exact ih (by omega)

theorem isSep_of_plain {b : Byte} (h : b ≠ 47 ∧ b ≠ 92) : isSep b = false := by
  simp [isSep, chSlash, chBackslash, h.1, h.2]

/-- The file name of `dir/name` is `name`, dotted or not. -/
theorem filename_source (before : Byte) (dir name : Bytes) (hn : ∀ b ∈ name, b ≠ 47 ∧ b ≠ 92) (d c f) :
    (source before (dir ++ 47 :: name) d c f).filename = name := by
  show (dir ++ 47 :: name).drop (splitPath before (dir ++ 47 :: name)).filename = name
  have hd : (dir ++ 47 :: name).drop (dir.length + 1) = name := by
    rw [show dir.length + 1 = (dir ++ [47]).length by simp, show dir ++ 47 :: name = (dir ++ [47]) ++ name by simp]
    exact List.drop_left
  simp only [splitPath]
  have hle := SourceFileProps.scanBack_le isSepOrDot (dir ++ 47 :: name) (dir ++ 47 :: name).length
  have hsp := SourceFileProps.scanBack_spec isSepOrDot (dir ++ 47 :: name) (dir ++ 47 :: name).length (Nat.le_refl _)
  generalize hq : scanBack isSepOrDot (dir ++ 47 :: name) (dir ++ 47 :: name).length = q at *
  have hge : dir.length + 1 ≤ q := by
    apply Decidable.byContradiction
    intro hlt
    have := hsp.1 dir.length 47 (by omega) (by simp) (by simp)
    exact absurd this (by decide)
  have hqn : q ≤ dir.length + 1 + name.length := by
    simp only [List.length_append, List.length_cons] at hle; omega
  have := scanBack_plain isSep dir name 47 (by decide) (fun b hb => isSep_of_plain (hn b hb)) (q - (dir.length + 1)) (by omega)
  rw [show dir.length + 1 + (q - (dir.length + 1)) = q by omega] at this
  rw [this]
  exact hd

/-- The extension of `dir/name` is empty when the name has no dot. -/
theorem ext_plain (before : Byte) (dir name : Bytes) (hn : plain name) (d c f) :
    (source before (dir ++ 47 :: name) d c f).ext = [] := by
  show (dir ++ 47 :: name).drop (splitPath before (dir ++ 47 :: name)).ext = []
  have hl : (dir ++ 47 :: name).length = dir.length + 1 + name.length := by
    simp only [List.length_append, List.length_cons]; omega
  have := scanBack_plain isSepOrDot dir name 47 (by decide) (fun b hb => isSepOrDot_false (hn b hb)) name.length (Nat.le_refl _)
  simp only [splitPath, hl, this]
  rw [if_neg (by omega : ¬ dir.length + 1 = 0)]
  have hp : ((dir ++ 47 :: name)[dir.length + 1 - 1]?).getD 0 = 47 := by
    rw [Nat.add_sub_cancel, List.getElem?_append_right (Nat.le_refl _)]
    simp
  rw [hp, if_neg (by decide)]
  rw [← hl]
  exact List.drop_length

theorem byFilename (o : Oracles) (st : Stack) (before : Byte) (i : Input) (l : String)
    (h1 : byExt i.ext = none) (h2 : fromFilename i.filename = some l)
    (hf : Fits st i.text) (hn : ¬ Occurs (bs "-*-") i.text) :
    detect o st before i = some (some l) := by
  rw [detect, detectN, candidate, h1]
  dsimp only
  rw [modeline_none st i hf hn, Option.bind_some]
  dsimp only
  rw [h2]
  rfl

/-- C51, the full claim: a file with a listed name has the listed language, whatever
directory it is in and whatever libmagic says, unless it has a mode line. -/
def C51_full : Prop :=
  ∀ (o : Oracles) (before : Byte) (dir name : Bytes) (l : String) (disk contents : Option Bytes)
    (files : Option (List Bytes)), (name, l) ∈ filenames →
    (∀ c, contents = some c → ShortLines c ∧ ¬ Occurs (bs "-*-") c) →
    detect o .strict before (source before (dir ++ bs "/" ++ name) disk contents files) = some (some l)

/-- C51 is false: the entry "init.pp" (Puppet) is never used, since the extension is listed. -/
theorem C51_negation :
    (bs "init.pp", "puppet") ∈ filenames ∧
    (∀ before disk files, detect mute .strict before (source before (bs "d" ++ bs "/" ++ bs "init.pp") disk
      (some (bs "$x = 1")) files) = some (some "pascal")) ∧ ¬ C51_full := by
  have h0 : (bs "init.pp", "puppet") ∈ filenames := by decide +kernel
  have h1 : ∀ before disk files, detect mute .strict before (source before (bs "d" ++ bs "/" ++ bs "init.pp") disk
      (some (bs "$x = 1")) files) = some (some "pascal") := by
    intro before disk files
    have hp : plain (bs "pp") := by decide +kernel
    have hx := ext_source before (bs "d/init") (bs "pp") hp disk (some (bs "$x = 1")) files
    rw [show bs "d" ++ bs "/" ++ bs "init.pp" = bs "d/init" ++ 46 :: bs "pp" by decide +kernel]
    have hb : byExt (source before (bs "d/init" ++ 46 :: bs "pp") disk (some (bs "$x = 1")) files).ext =
        some (.ambiguous "pp") := by rw [hx]; decide +kernel
    rw [detect, detectN, candidate_of_ext _ _ _ hb]
    rfl
  refine ⟨h0, h1, fun h => ?_⟩
  have h2 := h mute 0 (bs "d") _ _ none (some (bs "$x = 1")) none h0 (by
    intro c hc
    cases hc
    constructor
    · intro a l b hab _
      have := congrArg List.length hab
      rw [List.length_append, List.length_append, show (bs "$x = 1").length = 6 by decide +kernel] at this
      omega
    · rintro ⟨a, b, hab⟩
      have : (45 : Byte) ∈ bs "$x = 1" := by
        rw [hab]
        exact List.mem_append_left _ (List.mem_append_right _ (by decide +kernel))
      exact absurd this (by decide +kernel))
  rw [h1 0 none none] at h2
  exact absurd h2 (by decide)

/-- C51, what holds: all names of the table but "init.pp" and "configure.in" (the latter is
handled like "configure", see `.in` files). -/
theorem C51_filename_partial (o : Oracles) (st : Stack) (before : Byte) (dir name : Bytes) (l : String)
    (disk contents : Option Bytes) (files : Option (List Bytes)) (hm : (name, l) ∈ filenames)
    (h1 : name ≠ bs "init.pp") (h2 : name ≠ bs "configure.in")
    (hc : ∀ c, contents = some c → (st.pad = true ∨ ShortLines c) ∧ ¬ Occurs (bs "-*-") c) :
    detect o st before (source before (dir ++ bs "/" ++ name) disk contents files) = some (some l) := by
  rw [show dir ++ bs "/" ++ name = dir ++ 47 :: name by simp [bs]]
  have hsep : ∀ x ∈ filenames, ∀ b ∈ x.1, b ≠ 47 ∧ b ≠ 92 := by decide +kernel
  have hfn := filename_source before dir name (hsep _ hm) disk contents files
  have hext : byExt (source before (dir ++ 47 :: name) disk contents files).ext = none := by
    have key : ∀ x ∈ filenames, x.1 ≠ bs "init.pp" → x.1 ≠ bs "configure.in" →
        plain x.1 ∨ x.1 = bs "CMakeLists" ++ 46 :: bs "txt" ∨ x.1 = bs "Makefile" ++ 46 :: bs "am" ∨
          x.1 = bs "configure" ++ 46 :: bs "ac" ∨ x.1 = bs "script" ++ 46 :: bs "utf8" := by decide +kernel
    have dotted : ∀ a e : Bytes, plain e → byExt e = none → name = a ++ 46 :: e →
        byExt (source before (dir ++ 47 :: name) disk contents files).ext = none := by
      intro a e he hn hname
      rw [hname, show dir ++ 47 :: (a ++ 46 :: e) = (dir ++ 47 :: a) ++ 46 :: e by simp]
      rw [ext_source before _ e he, hn]
    rcases key _ hm h1 h2 with h | h | h | h | h
    · rw [ext_plain before dir name h]; decide +kernel
    · exact dotted _ _ (by decide +kernel) (by decide +kernel) h
    · exact dotted _ _ (by decide +kernel) (by decide +kernel) h
    · exact dotted _ _ (by decide +kernel) (by decide +kernel) h
    · exact dotted _ _ (by decide +kernel) (by decide +kernel) h
  refine byFilename o st before _ l hext ?_ ?_ ?_
  · rw [hfn]; exact mem_lookup filenames_nodup hm
  · show Fits st (contents.getD [])
    cases contents with
    | none =>
      refine Or.inr ?_
      intro a l b hab _
      have := congrArg List.length hab
      simp only [Option.getD_none, List.length_nil, List.length_append] at this
      omega
    | some c => exact (hc c rfl).1
  · show ¬ Occurs _ (contents.getD [])
    cases contents with
    | none => exact not_occurs_nil (by decide +kernel)
    | some c => exact (hc c rfl).2

example : (bs "Makefile", "make") ∈ filenames := by decide +kernel
example : detect mute .strict 0 (source 0 (bs "src/Makefile") none (some (bs "all: a b")) none) = some (some "make") := by
  decide +kernel

/-! ### C52: markers in the contents -/

theorem source_contents (before : Byte) (path : Bytes) (d c f) : (source before path d c f).contents = c := rfl
theorem source_text (before : Byte) (path : Bytes) (d : Option Bytes) (c : Bytes) (f) :
    (source before path d (some c) f).text = c := rfl

theorem ext_decides (o : Oracles) (st : Stack) (before : Byte) (stem e : Bytes) (id : String)
    (disk contents : Option Bytes) (files : Option (List Bytes)) (he : plain e)
    (hv : (e, ExtVal.ambiguous id) ∈ extensions) :
    detect o st before (source before (stem ++ bs "." ++ e) disk contents files) =
      disambiguate o st before
        (detectN o st before (source before (stem ++ bs "." ++ e) disk contents files).filepath.length) id
        (source before (stem ++ bs "." ++ e) disk contents files) := by
  rw [show stem ++ bs "." ++ e = stem ++ 46 :: e by simp [bs]]
  have hx : byExt (source before (stem ++ 46 :: e) disk contents files).ext = some (.ambiguous id) := by
    rw [ext_source before stem e he]; simp only [byExt, fromExt_mem hv]
  rw [detect, detectN, candidate_of_ext o _ _ hx]
  rfl

/-- C52, `.cs`: ClearSilver iff "<?cs" occurs (before the first NUL), else C#. -/
theorem C52_cs (o : Oracles) (st : Stack) (before : Byte) (stem c : Bytes) (disk : Option Bytes)
    (files : Option (List Bytes)) :
    let r := detect o st before (source before (stem ++ bs "." ++ bs "cs") disk (some c) files)
    (Occurs (bs "<?cs") (cstr c) → r = some (some "clearsilver_template")) ∧
    (¬ Occurs (bs "<?cs") (cstr c) → r = some (some "csharp")) := by
  have h := ext_decides o st before stem (bs "cs") "cs" disk (some c) files (by decide +kernel) (by decide +kernel)
  simp only [h, disambiguate, cs, source_contents]
  have hs := strstr_isSome (s := "<?cs") (by decide +kernel) (by decide +kernel) c
  refine ⟨fun hh => by rw [if_pos (hs.mpr hh)], fun hh => by rw [if_neg (fun x => hh (hs.mp x))]⟩

/-- C52, `.inc`: PHP iff "?php" occurs, otherwise no language. -/
theorem C52_inc (o : Oracles) (st : Stack) (before : Byte) (stem c : Bytes) (disk : Option Bytes)
    (files : Option (List Bytes)) :
    let r := detect o st before (source before (stem ++ bs "." ++ bs "inc") disk (some c) files)
    (Occurs (bs "?php") (cstr c) → r = some (some "php")) ∧
    (¬ Occurs (bs "?php") (cstr c) → r = some none) := by
  have h := ext_decides o st before stem (bs "inc") "inc" disk (some c) files (by decide +kernel) (by decide +kernel)
  simp only [h, disambiguate, inc, source_contents]
  have hs := strstr_isSome (s := "?php") (by decide +kernel) (by decide +kernel) c
  refine ⟨fun hh => by rw [if_pos (hs.mpr hh)], fun hh => by rw [if_neg (fun x => hh (hs.mp x))]⟩

/-- C52, `.pl`: without a Perl first line, Prolog iff ":-" followed by a blank or a line feed
occurs, else Perl. -/
theorem C52_pl (o : Oracles) (st : Stack) (before : Byte) (stem c : Bytes) (disk : Option Bytes)
    (files : Option (List Bytes)) :
    let r := detect o st before (source before (stem ++ bs "." ++ bs "pl") disk (some c) files)
    let rule := Occurs (bs ":- ") (cstr c) ∨ Occurs (bs ":-\n") (cstr c)
    let shebang := o.perlShebang ((cstr c).take 100) = true
    (shebang → r = some (some "perl")) ∧
    (¬ shebang → rule → r = some (some "prolog")) ∧
    (¬ shebang → ¬ rule → r = some (some "perl")) := by
  have h := ext_decides o st before stem (bs "pl") "pl" disk (some c) files (by decide +kernel) (by decide +kernel)
  simp only [h, disambiguate, pl, source_contents]
  have hs1 := strstr_isSome (s := ":- ") (by decide +kernel) (by decide +kernel) c
  have hs2 := strstr_isSome (s := ":-\n") (by decide +kernel) (by decide +kernel) c
  refine ⟨fun hh => by rw [if_pos (show o.perlShebang (firstBytes 100 c) = true from hh)], fun hn hh => ?_, fun hn hh => ?_⟩
  · rw [if_neg (show ¬ o.perlShebang (firstBytes 100 c) = true from hn), if_pos]
    rw [Bool.or_eq_true]
    exact hh.imp hs1.mpr hs2.mpr
  · rw [if_neg (show ¬ o.perlShebang (firstBytes 100 c) = true from hn), if_neg]
    intro hx
    rw [Bool.or_eq_true] at hx
    exact hh (hx.imp hs1.mp hs2.mp)

open Classical in
theorem pro_iff (p : Bytes) :
    pro p = (if ∃ w ∈ [bs "SOURCES +=", bs "SOURCES+=", bs "CONFIG +=", bs "CONFIG+="], Occurs w p
      then some "make" else some "idl_pvwave") := by
  induction p with
  | nil =>
    rw [if_neg]
    · rfl
    · rintro ⟨w, hw, h⟩
      refine not_occurs_nil ?_ h
      rintro rfl
      exact absurd hw (by decide +kernel)
  | cons c p ih =>
    simp only [pro]
    by_cases hc : (starts (c :: p) "SOURCES +=" || starts (c :: p) "SOURCES+=" || starts (c :: p) "CONFIG +=" ||
        starts (c :: p) "CONFIG+=") = true
    · rw [if_pos hc, if_pos]
      simp only [Bool.or_eq_true, starts, List.isPrefixOf_iff_prefix] at hc
      rcases hc with ((hc | hc) | hc) | hc
      · exact ⟨_, by simp, occurs_cons.mpr (Or.inl hc)⟩
      · exact ⟨_, by simp, occurs_cons.mpr (Or.inl hc)⟩
      · exact ⟨_, by simp, occurs_cons.mpr (Or.inl hc)⟩
      · exact ⟨_, by simp, occurs_cons.mpr (Or.inl hc)⟩
    · rw [if_neg hc, ih]
      have : (∃ w ∈ [bs "SOURCES +=", bs "SOURCES+=", bs "CONFIG +=", bs "CONFIG+="], Occurs w (c :: p)) ↔
          (∃ w ∈ [bs "SOURCES +=", bs "SOURCES+=", bs "CONFIG +=", bs "CONFIG+="], Occurs w p) := by
        constructor
        · rintro ⟨w, hw, ho⟩
          rcases occurs_cons.mp ho with ho | ho
          · exfalso
            apply hc
            simp only [Bool.or_eq_true, starts, List.isPrefixOf_iff_prefix]
            simp only [List.mem_cons, List.not_mem_nil, or_false] at hw
            rcases hw with rfl | rfl | rfl | rfl
            · exact Or.inl (Or.inl (Or.inl ho))
            · exact Or.inl (Or.inl (Or.inr ho))
            · exact Or.inl (Or.inr ho)
            · exact Or.inr ho
          · exact ⟨w, hw, ho⟩
        · rintro ⟨w, hw, ho⟩
          exact ⟨w, hw, occurs_cons.mpr (Or.inr ho)⟩
      simp only [this]

/-- C52, `.pro`: qmake iff one of four assignments occurs anywhere, else IDL. -/
theorem C52_pro (o : Oracles) (st : Stack) (before : Byte) (stem c : Bytes) (disk : Option Bytes)
    (files : Option (List Bytes)) :
    let r := detect o st before (source before (stem ++ bs "." ++ bs "pro") disk (some c) files)
    let qmake := ∃ w ∈ [bs "SOURCES +=", bs "SOURCES+=", bs "CONFIG +=", bs "CONFIG+="], Occurs w c
    (qmake → r = some (some "make")) ∧ (¬ qmake → r = some (some "idl_pvwave")) := by
  have h := ext_decides o st before stem (bs "pro") "pro" disk (some c) files (by decide +kernel) (by decide +kernel)
  simp only [h, disambiguate, source_text, pro_iff]
  exact ⟨fun hh => by rw [if_pos hh], fun hh => by rw [if_neg hh]⟩

theorem startsCase_iff (p : Bytes) (s : String) :
    startsCase p s = true ↔ ∃ x b, p = x ++ b ∧ lower x = bs s := by
  simp only [startsCase, List.isPrefixOf_iff_prefix]
  constructor
  · rintro ⟨t, ht⟩
    refine ⟨p.take (bs s).length, p.drop (bs s).length, (List.take_append_drop _ _).symm, ?_⟩
    rw [lower, List.map_take, ← ht, List.take_left]
  · rintro ⟨x, b, rfl, h⟩
    exact ⟨b.map tolower, by rw [List.map_append, ← h]; rfl⟩

open Classical in
theorem rLoop_iff (p : Bytes) :
    rLoop p = (if OccursBefore (fun x => lower x = bs "rebol") p then some "rebol" else some "r") := by
  have hlen : (bs "rebol").length = 5 := by decide +kernel
  have short : ∀ p : Bytes, p.length ≤ 5 → ¬ OccursBefore (fun x => lower x = bs "rebol") p := by
    rintro p hp ⟨a, x, b, rfl, hx, hb⟩
    have : x.length = 5 := by rw [← hlen, ← hx, lower, List.length_map]
    have : 0 < b.length := List.length_pos_iff.mpr hb
    simp only [List.length_append] at hp
    omega
  induction p with
  | nil => rw [if_neg (short _ (by simp))]; rfl
  | cons c p ih =>
    simp only [rLoop]
    split
    · rename_i h; rw [if_neg (short _ h)]
    · rename_i hl
      by_cases hc : startsCase (c :: p) "rebol" = true
      · rw [if_pos hc, if_pos]
        obtain ⟨x, b, he, hx⟩ := (startsCase_iff _ _).mp hc
        refine ⟨[], x, b, he, hx, ?_⟩
        rintro rfl
        have h1 : x.length = 5 := by rw [← hlen, ← hx, lower, List.length_map]
        rw [he] at hl
        simp only [List.append_nil] at hl
        omega
      · rw [if_neg hc, ih]
        have : OccursBefore (fun x => lower x = bs "rebol") (c :: p) ↔ OccursBefore (fun x => lower x = bs "rebol") p := by
          constructor
          · rintro ⟨a, x, b, he, hx, hb⟩
            cases a with
            | nil => exact absurd ((startsCase_iff _ _).mpr ⟨x, b, he, hx⟩) hc
            | cons d a =>
              simp only [List.cons_append, List.cons.injEq] at he
              exact ⟨a, x, b, he.2, hx, hb⟩
          · rintro ⟨a, x, b, he, hx, hb⟩
            exact ⟨c :: a, x, b, by rw [he]; rfl, hx, hb⟩
        simp only [this]

/-- C52, `.r`: REBOL iff "rebol" occurs in any case *and is not the very end of the file*,
else R. -/
theorem C52_r (o : Oracles) (st : Stack) (before : Byte) (stem c : Bytes) (disk : Option Bytes)
    (files : Option (List Bytes)) :
    let r := detect o st before (source before (stem ++ bs "." ++ bs "r") disk (some c) files)
    let rebol := ∃ a x b, c = a ++ x ++ b ∧ lower x = bs "rebol" ∧ b ≠ []
    (rebol → r = some (some "rebol")) ∧ (¬ rebol → r = some (some "r")) := by
  have h := ext_decides o st before stem (bs "r") "r" disk (some c) files (by decide +kernel) (by decide +kernel)
  simp only [h, disambiguate, Detector.r, source_contents, rLoop_iff]
  have hb : OccursBefore (fun x => lower x = bs "rebol") c ↔
      ∃ a x b, c = a ++ x ++ b ∧ lower x = bs "rebol" ∧ b ≠ [] := Iff.rfl
  exact ⟨fun hh => by rw [if_pos (hb.mpr hh)], fun hh => by rw [if_neg (fun x => hh (hb.mp x))]⟩

open Classical in
theorem rsLoop_iff (p : Bytes) :
    rsLoop p = (if OccursBefore (fun x => x = bs "\n#pragma version") p then none else some "rust") := by
  have hlen : (bs "\n#pragma version").length = 16 := by decide +kernel
  have short : ∀ p : Bytes, p.length ≤ 16 → ¬ OccursBefore (fun x => x = bs "\n#pragma version") p := by
    rintro p hp ⟨a, x, b, rfl, hx, hb⟩
    have : x.length = 16 := by rw [← hlen, hx]
    have : 0 < b.length := List.length_pos_iff.mpr hb
    simp only [List.length_append] at hp
    omega
  induction p with
  | nil => rw [if_neg (short _ (by simp))]; rfl
  | cons c p ih =>
    simp only [rsLoop]
    split
    · rename_i h; rw [if_neg (short _ h)]
    · rename_i hl
      by_cases hc : starts (c :: p) "\n#pragma version" = true
      · rw [if_pos hc, if_pos]
        obtain ⟨b, he⟩ := List.isPrefixOf_iff_prefix.mp hc
        refine ⟨[], _, b, he.symm, rfl, ?_⟩
        rintro rfl
        rw [← he] at hl
        simp only [List.append_nil] at hl
        omega
      · rw [if_neg hc, ih]
        have : OccursBefore (fun x => x = bs "\n#pragma version") (c :: p) ↔ OccursBefore (fun x => x = bs "\n#pragma version") p := by
          constructor
          · rintro ⟨a, x, b, he, hx, hb⟩
            cases a with
            | nil => exact absurd (List.isPrefixOf_iff_prefix.mpr ⟨b, by rw [← hx]; exact he.symm⟩) hc
            | cons d a =>
              simp only [List.cons_append, List.cons.injEq] at he
              exact ⟨a, x, b, he.2, hx, hb⟩
          · rintro ⟨a, x, b, he, hx, hb⟩
            exact ⟨c :: a, x, b, by rw [he]; rfl, hx, hb⟩
        simp only [this]

/-- C52, `.rs`: no language (RenderScript) iff the file starts with "#pragma version" in any
case or a later line does in lower case (and something follows), else Rust. -/
theorem C52_rs (o : Oracles) (st : Stack) (before : Byte) (stem c : Bytes) (disk : Option Bytes)
    (files : Option (List Bytes)) :
    let r := detect o st before (source before (stem ++ bs "." ++ bs "rs") disk (some c) files)
    let script := (∃ x b, c = x ++ b ∧ lower x = bs "#pragma version") ∨
      (∃ a b, c = a ++ bs "\n#pragma version" ++ b ∧ b ≠ [])
    (script → r = some none) ∧ (¬ script → r = some (some "rust")) := by
  have h := ext_decides o st before stem (bs "rs") "rs" disk (some c) files (by decide +kernel) (by decide +kernel)
  have hb : OccursBefore (fun x => x = bs "\n#pragma version") c ↔
      (∃ a b, c = a ++ bs "\n#pragma version" ++ b ∧ b ≠ []) := by
    constructor
    · rintro ⟨a, x, b, he, rfl, hb⟩; exact ⟨a, b, he, hb⟩
    · rintro ⟨a, b, he, hb⟩; exact ⟨a, _, b, he, rfl, hb⟩
  have hs := startsCase_iff c "#pragma version"
  simp only [h, disambiguate, rs, source_contents, rsLoop_iff]
  refine ⟨fun hh => ?_, fun hh => ?_⟩
  · by_cases h1 : startsCase c "#pragma version" = true
    · rw [if_pos h1]
    · rw [if_neg h1, if_pos (hb.mpr (hh.resolve_left (fun x => h1 (hs.mpr x))))]
  · rw [if_neg (fun h1 => hh (Or.inl (hs.mp h1))), if_neg (fun h2 => hh (Or.inr (hb.mp h2)))]

theorem asx_trim (p : Bytes) : asx p = asx (trim p) := by
  induction p with
  | nil => rfl
  | cons b p ih =>
    unfold trim
    rw [List.dropWhile_cons]
    by_cases h : (isBlank b || isNl b) = true
    · rw [if_pos h, asx, if_pos h]; exact ih
    · rw [if_neg h]

theorem dat_trim (p : Bytes) : dat p = dat (trim p) := by
  induction p with
  | nil => rfl
  | cons b p ih =>
    unfold trim
    rw [List.dropWhile_cons]
    by_cases h : (isBlank b || isNl b) = true
    · rw [if_pos h, dat, if_pos h]; exact ih
    · rw [if_neg h]

theorem trim_head {p : Bytes} {b : Byte} {t : Bytes} (h : trim p = b :: t) : (isBlank b || isNl b) = false := by
  have := List.head_dropWhile_not (fun b => isBlank b || isNl b) (l := p) (by
    show trim p ≠ []; rw [h]; simp)
  have h2 : (p.dropWhile fun b => isBlank b || isNl b) = b :: t := h
  simp only [h2, List.head_cons] at this
  simpa using this

theorem head_of_prefix {w : String} {c : Byte} {t : Bytes} {p : Bytes} (hw : bs w = c :: t) (h : bs w <+: p) :
    ∃ q, p = c :: q := by
  obtain ⟨y, rfl⟩ := h
  exact ⟨t ++ y, by rw [hw]; rfl⟩

/-- C52, `.dat`: AMPL iff the first thing in the file that is not a blank or a line end is a
comment ("/*" or "#") or "data", "param" or "set"; otherwise not a program. -/
theorem C52_dat (o : Oracles) (st : Stack) (before : Byte) (stem c : Bytes) (disk : Option Bytes)
    (files : Option (List Bytes)) :
    let r := detect o st before (source before (stem ++ bs "." ++ bs "dat") disk (some c) files)
    r = some (some "ampl") ↔
      ∃ w ∈ [bs "/*", bs "#", bs "data", bs "param", bs "set"], w <+: trim c := by
  have h := ext_decides o st before stem (bs "dat") "dat" disk (some c) files (by decide +kernel) (by decide +kernel)
  simp only [h, disambiguate, source_text, dat_trim c, Option.some.injEq]
  have hh := @trim_head c
  generalize trim c = p at hh
  cases p with
  | nil =>
    simp only [dat]
    constructor
    · intro hx; cases hx
    · rintro ⟨w, hw, hp⟩
      have : w = [] := by simpa using hp
      subst this
      exact absurd hw (by decide +kernel)
  | cons b t =>
    simp only [dat, hh rfl, Bool.false_eq_true, if_false]
    have e1 : bs "/*" = [47, 42] := by decide +kernel
    have e2 : bs "#" = [35] := by decide +kernel
    have e3 : bs "data" = [100, 97, 116, 97] := by decide +kernel
    have e4 : bs "param" = [112, 97, 114, 97, 109] := by decide +kernel
    have e5 : bs "set" = [115, 101, 116] := by decide +kernel
    have hst : ∀ s, starts (b :: t) s = true ↔ bs s <+: b :: t := fun s => List.isPrefixOf_iff_prefix
    have hBIN : (some BINARY : Option String) ≠ some "ampl" := by decide +kernel
    have hhd : (hd t == 42) = true ↔ [(42 : Byte)] <+: t := by
      cases t with
      | nil => simp [hd]
      | cons x t => simp only [hd, List.headD_cons, beq_iff_eq, List.cons_prefix_cons, List.nil_prefix, and_true]; exact eq_comm
    simp only [List.mem_cons, List.not_mem_nil, or_false, exists_eq_or_imp, exists_eq_left]
    by_cases b1 : b = 47
    · subst b1
      simp only [beq_self_eq_true, if_true]
      rw [e1, e2, e3, e4, e5]
      simp only [List.cons_prefix_cons]
      have n1 : ¬ (35 : Byte) = 47 := by decide
      have n2 : ¬ (100 : Byte) = 47 := by decide
      have n3 : ¬ (112 : Byte) = 47 := by decide
      have n4 : ¬ (115 : Byte) = 47 := by decide
      simp only [n1, n2, n3, n4, false_and, or_false, true_and]
      split
      · rename_i hx; exact ⟨fun _ => hhd.mp hx, fun _ => rfl⟩
      · rename_i hx
        exact ⟨fun hy => (by cases hy), fun hy => absurd (hhd.mpr hy) hx⟩
    · by_cases b2 : b = 35
      · subst b2
        rw [if_neg (by decide), if_pos (by decide)]
        simp only [true_iff]
        exact Or.inr (Or.inl ⟨t, by rw [e2]; rfl⟩)
      · have q1 : (b == 47) = false := by simpa using b1
        have q2 : (b == 35) = false := by simpa using b2
        simp only [q1, q2, Bool.false_eq_true, if_false]
        have p1 : ¬ bs "/*" <+: b :: t := by rw [e1, List.cons_prefix_cons]; exact fun hx => b1 hx.1.symm
        have p2 : ¬ bs "#" <+: b :: t := by rw [e2, List.cons_prefix_cons]; exact fun hx => b2 hx.1.symm
        have q3 : bs "data" <+: b :: t → b = 100 := by rw [e3, List.cons_prefix_cons]; exact fun hx => hx.1.symm
        have q4 : bs "param" <+: b :: t → b = 112 := by rw [e4, List.cons_prefix_cons]; exact fun hx => hx.1.symm
        have q5 : bs "set" <+: b :: t → b = 115 := by rw [e5, List.cons_prefix_cons]; exact fun hx => hx.1.symm
        simp only [p1, p2, false_or]
        by_cases b3 : b = 100
        · have n4 : ¬ bs "param" <+: b :: t := fun hx => absurd (b3.symm.trans (q4 hx)) (by decide)
          have n5 : ¬ bs "set" <+: b :: t := fun hx => absurd (b3.symm.trans (q5 hx)) (by decide)
          simp only [n4, n5, or_false]
          rw [if_pos (by simpa using b3)]
          split
          · rename_i hx; exact ⟨fun _ => (hst _).mp hx, fun _ => rfl⟩
          · rename_i hx; exact ⟨fun hy => absurd hy hBIN, fun hy => absurd ((hst _).mpr hy) hx⟩
        · rw [if_neg (by simpa using b3)]
          have n3 : ¬ bs "data" <+: b :: t := fun hx => b3 (q3 hx)
          simp only [n3, false_or]
          by_cases b4 : b = 112
          · have n5 : ¬ bs "set" <+: b :: t := fun hx => absurd (b4.symm.trans (q5 hx)) (by decide)
            simp only [n5, or_false]
            rw [if_pos (by simpa using b4)]
            split
            · rename_i hx; exact ⟨fun _ => (hst _).mp hx, fun _ => rfl⟩
            · rename_i hx; exact ⟨fun hy => absurd hy hBIN, fun hy => absurd ((hst _).mpr hy) hx⟩
          · rw [if_neg (by simpa using b4)]
            have n4 : ¬ bs "param" <+: b :: t := fun hx => b4 (q4 hx)
            simp only [n4, false_or]
            by_cases b5 : b = 115
            · rw [if_pos (by simpa using b5)]
              split
              · rename_i hx; exact ⟨fun _ => (hst _).mp hx, fun _ => rfl⟩
              · rename_i hx; exact ⟨fun hy => absurd hy hBIN, fun hy => absurd ((hst _).mpr hy) hx⟩
            · rw [if_neg (by simpa using b5)]
              exact ⟨fun hy => absurd hy hBIN, fun hy => absurd (q5 hy) b5⟩

/-- C52, `.asx`: assembler unless the first byte that is not a blank or a line end is `<`,
NUL or the start of a byte-order mark. -/
theorem C52_asx (o : Oracles) (st : Stack) (before : Byte) (stem c : Bytes) (disk : Option Bytes)
    (files : Option (List Bytes)) :
    let r := detect o st before (source before (stem ++ bs "." ++ bs "asx") disk (some c) files)
    let xml := ∃ b t, trim c = b :: t ∧ b ∈ [60, 0, 0xef, 0xfe, (0xff : Byte)]
    (xml → r = some none) ∧ (¬ xml → r = some (some "assembler")) := by
  have h := ext_decides o st before stem (bs "asx") "asx" disk (some c) files (by decide +kernel) (by decide +kernel)
  simp only [h, disambiguate, source_text, asx_trim c, Option.some.injEq]
  have hh := @trim_head c
  generalize trim c = p at hh
  cases p with
  | nil =>
    refine ⟨fun ⟨b, t, hx, _⟩ => (by cases hx), fun _ => rfl⟩
  | cons b t =>
    simp only [asx, hh rfl, Bool.false_eq_true, if_false]
    constructor
    · rintro ⟨b', t', hx, hb⟩
      cases hx
      rw [if_pos]
      simpa [or_assoc] using hb
    · intro hx
      rw [if_neg]
      intro hb
      apply hx
      refine ⟨b, t, rfl, ?_⟩
      simpa [or_assoc] using hb

example : detect mute .strict 0 (source 0 (bs "a.r") none (some (bs "REBOL []")) none) = some (some "rebol") := by
  decide +kernel
/-- The marker at the very end of the file is not seen. -/
example : detect mute .strict 0 (source 0 (bs "a.r") none (some (bs "Rebol")) none) = some (some "r") := by
  decide +kernel
example : detect mute .strict 0 (source 0 (bs "a.dat") none (some (bs "\n set A;")) none) = some (some "ampl") := by
  decide +kernel

end Ohcount.Detector
