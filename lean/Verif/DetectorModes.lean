/-
Mode lines (C53) and libmagic descriptions (C54).
-/
import Verif.DetectorMore

namespace Ohcount.Detector

open Ohcount Ohcount.Tables Ohcount.Diff

set_option maxRecDepth 20000

/-! ### C53: mode lines -/

/-- A word that can be named in a mode line: no white space, semicolon, hyphen or NUL. -/
def ModeWord (w : Bytes) : Prop := w ≠ [] ∧ ∀ b ∈ w, isspace b = false ∧ b ≠ 59 ∧ b ≠ 45 ∧ b ≠ 0

instance (w : Bytes) : Decidable (ModeWord w) := inferInstanceAs (Decidable (_ ∧ _))

/-- What may stand before the mode line on its line. -/
def ModeLead (pre : Bytes) : Prop := (∀ b ∈ pre, b ≠ 10 ∧ b ≠ 13 ∧ b ≠ 0 ∧ b ≠ 45) ∧ ¬ bs "#!" <+: pre

instance (w : Bytes) : Decidable (ModeLead w) := inferInstanceAs (Decidable (_ ∧ _))

theorem strstr_skip (s : String) (c : Byte) (t : Bytes) (hs : bs s = c :: t) (pre p : Bytes)
    (h : ∀ b ∈ pre, b ≠ c ∧ b ≠ 0) : strstr s (pre ++ p) = strstr s p := by
  induction pre with
  | nil => rfl
  | cons b pre ih =>
    have hb := h b (List.mem_cons_self ..)
    simp only [List.cons_append, strstr]
    rw [if_neg, if_neg hb.2]
    · exact ih fun x hx => h x (List.mem_cons_of_mem _ hx)
    · intro hp
      have := List.isPrefixOf_iff_prefix.mp hp
      rw [hs, List.cons_prefix_cons] at this
      exact hb.1 this.1.symm

theorem modeEnd_word (w rest : Bytes) (hw : ∀ b ∈ w, isspace b = false ∧ b ≠ 59 ∧ b ≠ 45 ∧ b ≠ 0) :
    modeEnd (w ++ 32 :: rest) = some w.length := by
  induction w with
  | nil => rfl
  | cons b w ih =>
    have hb := hw b (List.mem_cons_self ..)
    simp only [List.cons_append, modeEnd, hb.1, Bool.false_or]
    rw [if_neg]
    · rw [ih fun x hx => hw x (List.mem_cons_of_mem _ hx)]; rfl
    · rw [Bool.or_eq_true]
      rintro (h | h)
      · exact hb.2.1 (by simpa using h)
      · have := List.isPrefixOf_iff_prefix.mp h
        rw [show bs "-*-" = [45, 42, 45] by decide +kernel, List.cons_prefix_cons] at this
        exact hb.2.2.1 this.1.symm

theorem cstr_prefix_clean {a raw : Bytes} (h : a <+: raw) (hz : ∀ b ∈ a, b ≠ 0) : a <+: cstr raw := by
  refine (prefix_cstr fun h0 => hz 0 h0 rfl).mpr h

/-- The buffer starts with the first 81 bytes of the first line, up to a NUL. -/
theorem firstLine_head (st : Stack) (p mem head : Bytes) (hfit : st.pad = true ∨ (p.takeWhile notNl).length ≤ 80)
    (hh : head <+: p) (hz : ∀ b ∈ head, b ≠ 0 ∧ b ≠ 10 ∧ b ≠ 13) (h80 : head.length ≤ 80)
    (h2 : 2 ≤ head.length) (hs : ¬ bs "#!" <+: head) :
    ∃ t, firstLine st (p.length + 1) p mem = some (head ++ t) := by
  unfold firstLine
  have hp : p ≠ [] := by
    rintro rfl
    have := hh.length_le
    simp only [List.length_nil] at this
    omega
  rw [if_neg hp]
  obtain ⟨r, rfl⟩ := hh
  have htw : ((head ++ r).takeWhile notNl) = head ++ r.takeWhile notNl :=
    List.takeWhile_append_of_pos fun x hx => (notNl_iff x).mpr (hz x hx).2
  have hpre : head <+: cstr (((head ++ r).takeWhile notNl).take 81) := by
    refine cstr_prefix_clean ?_ (fun b hb => (hz b hb).1)
    rw [htw]
    refine List.prefix_of_prefix_length_le (List.prefix_append head (r.takeWhile notNl)) (List.take_prefix _ _) ?_
    rw [List.length_take, List.length_append]; omega
  unfold setLine
  rw [if_pos (hfit.symm)]
  dsimp only
  obtain ⟨x, hx⟩ := hpre
  rw [Option.bind_some, ← hx]
  have hns : ∀ y : Bytes, ¬ starts (head ++ y) "#!" = true := by
    intro y hy
    have h1 := List.isPrefixOf_iff_prefix.mp hy
    refine hs (List.prefix_of_prefix_length_le h1 (List.prefix_append _ _) ?_)
    rw [show (bs "#!").length = 2 by decide +kernel]; exact h2
  simp only [List.append_assoc]
  rw [if_neg (hns _)]
  exact ⟨_, rfl⟩

/-- C53: in a file without a listed extension, a mode line on the first line that names a
language (with or without the keyword "mode:") decides, whatever else the contents, the
file name and libmagic say. -/
theorem C53_modeline (o : Oracles) (st : Stack) (before : Byte) (stem e pre key w post : Bytes) (l : String)
    (disk : Option Bytes) (files : Option (List Bytes))
    (he : plain e) (hn : ¬ listed e) (hn' : ¬ listed (lower e))
    (hpre : ModeLead pre) (hkey : key = bs "-*- " ∨ key = bs "-*- mode: ") (hw : ModeWord w)
    (hmode : ¬ bs "mode" <+: lower w) (hl : (w, l) ∈ languages) (hc : lower w ≠ bs "c")
    (hfit : st.pad = true ∨ ((pre ++ key ++ w ++ bs " -*-" ++ post).takeWhile notNl).length ≤ 80)
    (h80 : (pre ++ key ++ w ++ bs " -*-").length ≤ 80) :
    detect o st before (source before (stem ++ bs "." ++ e) disk
      (some (pre ++ key ++ w ++ bs " -*-" ++ post)) files) = some (some l) := by
  rw [show stem ++ bs "." ++ e = stem ++ 46 :: e by simp [bs]]
  have none_of : ∀ k, ¬ listed k → fromExt k = none := by
    intro k hk
    cases hc : fromExt k with
    | none => rfl
    | some w => exact absurd ⟨w, lookup_mem hc⟩ hk
  have hb : byExt (source before (stem ++ 46 :: e) disk (some (pre ++ key ++ w ++ bs " -*-" ++ post)) files).ext = none := by
    rw [ext_source before stem e he]
    simp only [byExt, none_of e hn]
    exact none_of _ hn'
  have hkz : ∀ b ∈ key, b ≠ 0 ∧ b ≠ 10 ∧ b ≠ 13 := by
    rcases hkey with rfl | rfl
    · decide +kernel
    · decide +kernel
  have hkl : 4 ≤ key.length := by
    rcases hkey with rfl | rfl
    · decide +kernel
    · decide +kernel
  have hkp : ∃ k, key = 45 :: k := by
    rcases hkey with rfl | rfl
    · exact ⟨[42, 45, 32], by decide +kernel⟩
    · exact ⟨[42, 45, 32, 109, 111, 100, 101, 58, 32], by decide +kernel⟩
  have hwz : ∀ b ∈ w, b ≠ 0 ∧ b ≠ 10 ∧ b ≠ 13 := by
    intro b hb
    have := hw.2 b hb
    refine ⟨this.2.2.2, ?_, ?_⟩
    · rintro rfl; exact absurd this.1 (by decide)
    · rintro rfl; exact absurd this.1 (by decide)
  obtain ⟨mem, hmem⟩ := firstLine_head st (pre ++ key ++ w ++ bs " -*-" ++ post) (List.replicate 81 0)
    (pre ++ key ++ w ++ bs " -*-") hfit (List.prefix_append _ _)
    (by
      intro b hb
      simp only [List.mem_append] at hb
      rcases hb with ((hb | hb) | hb) | hb
      · have := hpre.1 b hb; exact ⟨this.2.2.1, this.1, this.2.1⟩
      · exact hkz b hb
      · exact hwz b hb
      · revert b; decide +kernel)
    h80
    (by simp only [List.length_append]; omega)
    (by
      intro hx
      obtain ⟨k, rfl⟩ := hkp
      rw [show bs "#!" = [35, 33] by decide +kernel] at hx
      have hns := hpre.2
      rw [show bs "#!" = [35, 33] by decide +kernel] at hns
      match pre, hns, hx with
      | [], _, hx =>
        simp only [List.nil_append, List.cons_append, List.cons_prefix_cons] at hx
        exact absurd hx.1 (by decide)
      | [a], _, hx =>
        simp only [List.nil_append, List.cons_append, List.cons_prefix_cons] at hx
        exact absurd hx.2.1 (by decide)
      | a :: b :: t, hns, hx =>
        simp only [List.cons_append, List.cons_prefix_cons] at hx hns
        exact hns ⟨hx.1, hx.2.1, List.nil_prefix⟩)
  have hml : modeline st (source before (stem ++ 46 :: e) disk (some (pre ++ key ++ w ++ bs " -*-" ++ post)) files) =
      some (fromMode w) := by
    rw [modeline, source_text, hmem, Option.bind_some]
    rw [show pre ++ key ++ w ++ bs " -*-" ++ mem = pre ++ (key ++ (w ++ (bs " -*-" ++ mem))) by simp]
    rw [strstr_skip "-*-" 45 [42, 45] (by decide +kernel) pre _ (fun b hb => ⟨(hpre.1 b hb).2.2.2, (hpre.1 b hb).2.2.1⟩)]
    obtain ⟨c, w', hcw⟩ := List.exists_cons_of_ne_nil hw.1
    have hcb : isBlank c = false := by
      have := (hw.2 c (by rw [hcw]; simp)).1
      simp only [isspace, Bool.or_eq_false_iff, beq_eq_false_iff_ne, Bool.and_eq_false_iff] at this
      simp only [isBlank, Bool.or_eq_false_iff, beq_eq_false_iff_ne]
      refine ⟨this.1, ?_⟩
      rintro rfl
      exact absurd this.2 (by decide)
    have hcc : (isBlank c || c == 58) = true → c = 58 := by rw [hcb]; simp
    have hdw : ∀ rest : Bytes, (w ++ rest).dropWhile isBlank = w ++ rest := by
      intro rest
      rw [hcw, List.cons_append, List.dropWhile_cons, hcb]
      simp
    have hsm : ∀ rest : Bytes, startsCase (w ++ (bs " -*-" ++ rest)) "mode" = false := by
      intro rest
      rw [Bool.eq_false_iff]
      intro hx
      have hx := List.isPrefixOf_iff_prefix.mp hx
      rw [List.map_append, List.map_append] at hx
      by_cases hlen : 4 ≤ w.length
      · exact hmode (List.prefix_of_prefix_length_le hx (List.prefix_append _ _)
          (by rw [show (bs "mode").length = 4 by decide +kernel, lower, List.length_map]; exact hlen))
      · have hlw : (w.map tolower).length = w.length := List.length_map ..
        have hlm : (w.map tolower).length < (bs "mode").length := by
          rw [show (bs "mode").length = 4 by decide +kernel, hlw]; omega
        obtain ⟨r, hr⟩ := hx
        have h1 : (bs "mode" ++ r)[(w.map tolower).length]? = some 32 := by
          rw [hr, List.getElem?_append_right (Nat.le_refl _), Nat.sub_self]
          rfl
        rw [List.getElem?_append_left hlm] at h1
        have h3 : (32 : Byte) ∈ bs "mode" := List.mem_of_getElem? h1
        exact absurd h3 (by decide +kernel)
    have hend : ∀ rest, modeEnd (w ++ (bs " -*-" ++ rest)) = some w.length := by
      intro rest
      rw [show bs " -*-" ++ rest = 32 :: (bs "-*-" ++ rest) by simp [bs]]
      exact modeEnd_word w _ hw.2
    rcases hkey with rfl | rfl
    · have hss : strstr "-*-" (bs "-*- " ++ (w ++ (bs " -*-" ++ mem))) = some (bs "-*- " ++ (w ++ (bs " -*-" ++ mem))) := by
        rw [show bs "-*- " ++ (w ++ (bs " -*-" ++ mem)) = 45 :: (42 :: 45 :: 32 :: (w ++ (bs " -*-" ++ mem))) by
          rw [show bs "-*- " = [45, 42, 45, 32] by decide +kernel]; rfl]
        rw [strstr, if_pos]
        rw [starts, show bs "-*-" = [45, 42, 45] by decide +kernel]; rfl
      rw [hss]
      dsimp only
      rw [show (bs "-*- " ++ (w ++ (bs " -*-" ++ mem))).drop 3 = 32 :: (w ++ (bs " -*-" ++ mem)) by
        rw [show bs "-*- " = [45, 42, 45, 32] by decide +kernel]; rfl]
      rw [List.dropWhile_cons, if_pos (show isBlank 32 = true by decide), hdw, hsm]
      simp only [Bool.false_eq_true, if_false, hend, Option.map_some, List.take_left]
    · have hss : strstr "-*-" (bs "-*- mode: " ++ (w ++ (bs " -*-" ++ mem))) =
          some (bs "-*- mode: " ++ (w ++ (bs " -*-" ++ mem))) := by
        rw [show bs "-*- mode: " ++ (w ++ (bs " -*-" ++ mem)) =
            45 :: (42 :: 45 :: (bs " mode: " ++ (w ++ (bs " -*-" ++ mem)))) by
          rw [show bs "-*- mode: " = 45 :: 42 :: 45 :: bs " mode: " by decide +kernel]; rfl]
        rw [strstr, if_pos]
        rw [starts, show bs "-*-" = [45, 42, 45] by decide +kernel]; rfl
      rw [hss]
      dsimp only
      rw [show (bs "-*- mode: " ++ (w ++ (bs " -*-" ++ mem))).drop 3 =
          32 :: 109 :: 111 :: 100 :: 101 :: 58 :: 32 :: (w ++ (bs " -*-" ++ mem)) by
        rw [show bs "-*- mode: " = [45, 42, 45, 32, 109, 111, 100, 101, 58, 32] by decide +kernel]; rfl]
      rw [List.dropWhile_cons, if_pos (show isBlank 32 = true by decide), List.dropWhile_cons, if_neg (show ¬ isBlank 109 = true by decide)]
      have hst : startsCase (109 :: 111 :: 100 :: 101 :: 58 :: 32 :: (w ++ (bs " -*-" ++ mem))) "mode" = true := by
        refine (startsCase_iff _ _).mpr ⟨[109, 111, 100, 101], _, rfl, by decide +kernel⟩
      rw [if_pos hst]
      have hd4 : (109 :: 111 :: 100 :: 101 :: 58 :: 32 :: (w ++ (bs " -*-" ++ mem))).drop 4 =
          58 :: 32 :: (w ++ (bs " -*-" ++ mem)) := rfl
      rw [hd4, List.dropWhile_cons, if_pos (show (isBlank 58 || (58 : Byte) == 58) = true by decide),
        List.dropWhile_cons, if_pos (show (isBlank 32 || (32 : Byte) == 58) = true by decide)]
      have hc58 : c ≠ 58 := by
        have : ∀ x ∈ languages, ∀ b ∈ x.1, b ≠ 58 := by decide +kernel
        exact this _ hl c (by rw [hcw]; simp)
      have hd2 : (w ++ (bs " -*-" ++ mem)).dropWhile (fun c => isBlank c || c == 58) = w ++ (bs " -*-" ++ mem) := by
        rw [hcw, List.cons_append, List.dropWhile_cons, if_neg (fun hx => hc58 (hcc hx))]
      rw [hd2]
      simp only [hend, Option.map_some, List.take_left]
  rw [detect, detectN, candidate, hb]
  dsimp only
  rw [hml, Option.bind_some]
  have hcs : cstr w = w := by
    have := List.takeWhile_append_of_pos (p := fun b : Byte => b != 0) (l₁ := w) (l₂ := [])
      (by intro x hx; simpa using (hwz x hx).1)
    simpa [cstr] using this
  have hfm : fromMode w = .ok (some (.lang l)) := by
    rw [fromMode, hcs, if_neg (show ¬ w.map tolower = bs "c" from hc), fromName, mem_lookup languages_nodup hl]
  rw [hfm]
  rfl

example : ModeLead (bs "# ") ∧ ModeWord (bs "ruby") ∧ ¬ bs "mode" <+: lower (bs "ruby") ∧
    (bs "ruby", "ruby") ∈ languages ∧ lower (bs "ruby") ≠ bs "c" := by decide +kernel
example : detect mute .strict 0 (source 0 (bs "bin/run.x") none
    (some (bs "# -*- mode: ruby -*-\nputs 1\n")) none) = some (some "ruby") := by decide +kernel

/-! ### C54: libmagic descriptions -/

theorem strstr_first (s : String) (a p : Bytes) (ha : ¬ Occurs (bs s) (a ++ (bs s).dropLast)) (hz : ∀ b ∈ a, b ≠ 0)
    (h0 : bs s ≠ []) : strstr s (a ++ (bs s ++ p)) = some (bs s ++ p) := by
  induction a with
  | nil =>
    obtain ⟨c, t, hct⟩ := List.exists_cons_of_ne_nil h0
    simp only [List.nil_append]
    have hp : starts (bs s ++ p) s = true := List.isPrefixOf_iff_prefix.mpr (List.prefix_append _ _)
    cases hq : bs s ++ p with
    | nil => rw [hct] at hq; cases hq
    | cons d q => rw [hq] at hp; rw [strstr, if_pos hp]
  | cons b a ih =>
    simp only [List.cons_append, strstr]
    rw [if_neg, if_neg (hz b (List.mem_cons_self ..))]
    · refine ih (fun ⟨x, y, h⟩ => ha ⟨b :: x, y, by rw [List.cons_append, h]; rfl⟩)
        (fun x hx => hz x (List.mem_cons_of_mem _ hx))
    · intro hp
      have hp := List.isPrefixOf_iff_prefix.mp hp
      have hl : (bs s).length ≤ ((b :: a) ++ (bs s).dropLast).length := by
        have : 0 < (bs s).length := List.length_pos_iff.mpr h0
        simp only [List.length_append, List.length_cons, List.length_dropLast]; omega
      have hq : (b :: a) ++ (bs s).dropLast <+: b :: (a ++ (bs s ++ p)) := by
        have h1 : (bs s).dropLast <+: bs s ++ p := (List.dropLast_prefix _).trans (List.prefix_append _ _)
        obtain ⟨y, hy⟩ := h1
        exact ⟨y, by rw [← hy]; simp⟩
      obtain ⟨y, hy⟩ := List.prefix_of_prefix_length_le hp hq hl
      exact ha ⟨[], y, by rw [← hy]; rfl⟩

/-- C54: a libmagic description of the form "... <name> script ..." gives the language of
that name: the last word before the first "script" of the description. -/
theorem C54_script (text pre name rest : Bytes) (l : String)
    (ht : lower text = pre ++ name ++ bs " " ++ bs "script" ++ rest)
    (hpre : pre = [] ∨ ∃ a b, pre = a ++ [b] ∧ isalnum b = false ∧ b ≠ 45)
    (hname : name ≠ []) (hal : ∀ b ∈ name, isalnum b = true)
    (hz : ∀ b ∈ pre, b ≠ 0)
    (hfirst : ¬ Occurs (bs "script") (pre ++ name ++ bs " scrip"))
    (hl : (name, l) ∈ languages) :
    magicParse text = some (some l) := by
  have hne : ∀ b : Byte, isalnum b = true → b ≠ 0 ∧ b ≠ 32 ∧ b ≠ 45 :=
    byteAll (fun b => isalnum b = true → b ≠ 0 ∧ b ≠ 32 ∧ b ≠ 45) (by decide +kernel)
  have hm : text.map tolower = pre ++ name ++ bs " " ++ bs "script" ++ rest := ht
  have hs : bs " " = [32] := by decide +kernel
  have hstr : strstr "script" (text.map tolower) = some (bs "script" ++ rest) := by
    rw [hm, show pre ++ name ++ bs " " ++ bs "script" ++ rest = (pre ++ name ++ bs " ") ++ (bs "script" ++ rest) by simp]
    refine strstr_first "script" _ rest ?_ ?_ (by decide +kernel)
    · rw [show pre ++ name ++ bs " " ++ (bs "script").dropLast = pre ++ name ++ bs " scrip" by
        rw [show bs " scrip" = bs " " ++ (bs "script").dropLast by decide +kernel]; simp]
      exact hfirst
    · intro b hb
      simp only [List.mem_append] at hb
      rcases hb with (hb | hb) | hb
      · exact hz b hb
      · exact (hne b (hal b hb)).1
      · rw [hs] at hb; simp only [List.mem_singleton] at hb; rw [hb]; decide
  have hnt : starts (text.map tolower) "script text" = false := by
    rw [Bool.eq_false_iff]
    intro hx
    have hx := List.isPrefixOf_iff_prefix.mp hx
    rw [hm] at hx
    have h2 : bs "script" <+: pre ++ name ++ bs " scrip" := by
      have h3 : bs "script" <+: pre ++ name ++ bs " " ++ bs "script" ++ rest :=
        (show bs "script" <+: bs "script text" from ⟨bs " text", by decide +kernel⟩).trans hx
      refine List.prefix_of_prefix_length_le h3 ?_ ?_
      · rw [show bs "script" = bs "scrip" ++ bs "t" by decide +kernel,
          show bs " scrip" = bs " " ++ bs "scrip" by decide +kernel]
        exact ⟨bs "t" ++ rest, by simp⟩
      · simp only [List.length_append]
        rw [show (bs "script").length = 6 by decide +kernel, show (bs " scrip").length = 6 by decide +kernel]; omega
    obtain ⟨y, hy⟩ := h2
    exact hfirst ⟨[], y, hy.symm⟩
  unfold magicParse
  simp only [hnt, Bool.false_eq_true, if_false, hstr]
  have hlen : (text.map tolower).length - (bs "script" ++ rest).length = pre.length + name.length + 1 := by
    rw [hm, hs]; simp only [List.length_append, List.length_cons, List.length_nil]; omega
  rw [hlen, hm, hs]
  have hback : magicBack (pre ++ name ++ [32] ++ bs "script" ++ rest)
      ((pre ++ name ++ [32] ++ bs "script" ++ rest).length + 1) (pre.length + name.length + 1) =
      some (pre.length, pre.length + name.length) := by
    unfold magicBack
    rw [if_neg (by omega)]
    simp only [Nat.add_sub_cancel]
    have htk : (pre ++ name ++ [32] ++ bs "script" ++ rest).take (pre.length + name.length + 1) = pre ++ name ++ [32] := by
      rw [show pre.length + name.length + 1 = (pre ++ name ++ [32]).length by simp only [List.length_append, List.length_cons, List.length_nil],
        List.append_assoc (pre ++ name ++ [32]), List.take_left]
    obtain ⟨m, d, hmd⟩ : ∃ m d, name = m ++ [d] := by
      rcases List.eq_nil_or_concat name with h | ⟨m, d, h⟩
      · exact absurd h hname
      · exact ⟨m, d, by rw [h, List.concat_eq_append]⟩
    have hd := hne d (hal d (by rw [hmd]; simp))
    have hb1 : (pre ++ name ++ [32]).reverse.takeWhile (fun c => c == 32) = [32] := by
      rw [List.reverse_append, hmd]
      have : (d == (32 : Byte)) = false := by simpa using hd.2.1
      simp [this]
    rw [htk, hb1]
    have hnl : 0 < name.length := List.length_pos_iff.mpr hname
    rw [if_neg (by simp only [List.length_cons, List.length_nil]; omega)]
    simp only [List.length_cons, List.length_nil]
    have htk2 : (pre ++ name ++ [32] ++ bs "script" ++ rest).take (pre.length + name.length - (0 + 1)) = pre ++ m := by
      rw [hmd, show pre.length + (m ++ [d]).length - (0 + 1) = (pre ++ m).length by simp]
      rw [show pre ++ (m ++ [d]) ++ [32] ++ bs "script" ++ rest = (pre ++ m) ++ ([d] ++ [32] ++ bs "script" ++ rest) by simp]
      exact List.take_left
    have halm : ∀ b ∈ m.reverse, isalnum b = true := by
      intro b hb
      exact hal b (by rw [hmd]; exact List.mem_append_left _ (List.mem_reverse.mp hb))
    have htw : (pre ++ m).reverse.takeWhile isalnum = m.reverse := by
      rw [List.reverse_append, List.takeWhile_append_of_pos halm]
      rcases hpre with rfl | ⟨a, b, rfl, hb, _⟩
      · simp
      · simp [hb]
    rw [htk2, htw, List.length_reverse]
    have hp2 : pre.length + name.length - (0 + 1) - m.length = pre.length := by
      rw [hmd]; simp only [List.length_append, List.length_cons, List.length_nil]; omega
    rw [hp2]
    have hprev : ¬ (pre.length ≠ 0 ∧ (pre ++ name ++ [32] ++ bs "script" ++ rest)[pre.length - 1]? = some 45) := by
      rintro ⟨h1, h2⟩
      rcases hpre with rfl | ⟨a, b, rfl, _, hb⟩
      · exact h1 rfl
      · rw [show (a ++ [b]).length - 1 = a.length by simp] at h2
        rw [show a ++ [b] ++ name ++ [32] ++ bs "script" ++ rest = a ++ (b :: (name ++ [32] ++ bs "script" ++ rest)) by simp,
          List.getElem?_append_right (Nat.le_refl _)] at h2
        simp only [Nat.sub_self, List.getElem?_cons_zero, Option.some.injEq] at h2
        exact hb h2
    rw [if_neg hprev]
    have hcur : ¬ (pre ++ name ++ [32] ++ bs "script" ++ rest)[pre.length]? = some 45 := by
      obtain ⟨x, t, hxt⟩ := List.exists_cons_of_ne_nil hname
      rw [hxt, show pre ++ (x :: t) ++ [32] ++ bs "script" ++ rest = pre ++ (x :: (t ++ [32] ++ bs "script" ++ rest)) by simp,
        List.getElem?_append_right (Nat.le_refl _)]
      simp only [Nat.sub_self, List.getElem?_cons_zero, Option.some.injEq]
      exact (hne x (hal x (by rw [hxt]; simp))).2.2
    rw [if_neg hcur]
  rw [hback]
  simp only [Option.map_some]
  have : ((pre ++ name ++ [32] ++ bs "script" ++ rest).drop pre.length).take (pre.length + name.length - pre.length) = name := by
    rw [show pre ++ name ++ [32] ++ bs "script" ++ rest = pre ++ (name ++ ([32] ++ bs "script" ++ rest)) by simp,
      List.drop_left, Nat.add_sub_cancel_left, List.take_left]
  rw [this, fromName, mem_lookup languages_nodup hl]

example : magicParse (bs "Perl script, ASCII text executable") = some (some "perl") := by decide +kernel
example : magicParse (bs "a /usr/bin/ruby -w script text executable") = some (some "ruby") := by decide +kernel
/-- The hypotheses of `C54_script` for the first of these. -/
example : lower (bs "Perl script, ASCII") = [] ++ bs "perl" ++ bs " " ++ bs "script" ++ bs ", ascii" ∧
    (∀ b ∈ bs "perl", isalnum b = true) ∧ (bs "perl", "perl") ∈ languages := by decide +kernel

end Ohcount.Detector
