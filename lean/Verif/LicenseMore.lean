import Verif.LicenseFound

/-!
What follows for the licenses of a file (C93), and the entries whose expressions say something
else than their names: WTFPL (C94), Apache and Eiffel (C95), GPL 3 (C96), Mozilla (C97).
-/

namespace Ohcount.Licenses

open Ohcount Ohcount.Pcre Ohcount.Diff

/-! ### From what is found to what is reported -/

theorem found_bounds {vt : Bool} {t : Bytes} {i : Nat} {m : Nat × Nat}
    (h : Found (pcre vt) licenseMap t i m) : m.1 ≤ m.2 ∧ m.2 ≤ t.length := by
  obtain ⟨lic, _, hf, _⟩ := h
  simp only [pcre] at hf
  split at hf
  · have := find_some _ _ _ _ _ hf
    exact ⟨this.1, this.2.1⟩
  · cases hf

/-- Among the matches around a match there is one that is inside no other. -/
theorem kept_around (vt : Bool) (t : Bytes) : ∀ (n i : Nat) (m : Nat × Nat),
    Found (pcre vt) licenseMap t i m → t.length - (m.2 - m.1) ≤ n →
      ∃ i', Kept (pcre vt) licenseMap t i' := by
  intro n
  induction n with
  | zero =>
    intro i m h hn
    refine ⟨i, m, h, fun i' m' h' hin => ?_⟩
    obtain ⟨a1, a2, a3⟩ := hin
    have b := found_bounds h
    have b' := found_bounds h'
    exact a3 (Prod.ext (by omega) (by omega))
  | succ n ih =>
    intro i m h hn
    by_cases hk : ∃ i' m', Found (pcre vt) licenseMap t i' m' ∧ Inside m m'
    · obtain ⟨i', m', h', hin⟩ := hk
      obtain ⟨a1, a2, a3⟩ := hin
      have b := found_bounds h
      have b' := found_bounds h'
      refine ih i' m' h' ?_
      have : m'.2 - m'.1 ≠ m.2 - m.1 := fun e => a3 (Prod.ext (by omega) (by omega))
      omega
    · exact ⟨i, m, h, fun i' m' h' hin => hk ⟨i', m', h', hin⟩⟩

/-- If some license is found in the comments of the last language, some license is
reported. -/
theorem found_reported (vt : Bool) (junk : Byte) (jp : Int × Int) (pls : List ParsedLanguage)
    (hne : pls ≠ []) (out : List String)
    (h : detectLicense (pcre vt) junk jp licenseMap pls = some out) (i : Nat) (m : Nat × Nat)
    (hf : Found (pcre vt) licenseMap (searchText (cstr (pls.getLast hne).comments.mem)) i m) :
    out ≠ [] := by
  have rep := C26_reported_iff (pcre vt) junk jp licenseMap pls hne out h
  obtain ⟨i', hk⟩ := kept_around vt _ _ i m hf (Nat.le_refl _)
  obtain ⟨m', ⟨lic, hl, _⟩, _⟩ := id hk
  have up : ∀ g, KeptName (pcre vt) licenseMap (searchText (cstr (pls.getLast hne).comments.mem)) g →
      g ∈ out ∨ ∃ s, (g, s) ∈ overridePairs ∧
        KeptName (pcre vt) licenseMap (searchText (cstr (pls.getLast hne).comments.mem)) s := by
    intro g hg
    by_cases hc : ∃ s, (g, s) ∈ overridePairs ∧
        KeptName (pcre vt) licenseMap (searchText (cstr (pls.getLast hne).comments.mem)) s
    · exact Or.inr hc
    · refine Or.inl ((rep g).mpr ⟨hg, fun g' s hp e hs => hc ⟨s, e ▸ hp, hs⟩⟩)
  intro hnil
  have none : ∀ g, KeptName (pcre vt) licenseMap (searchText (cstr (pls.getLast hne).comments.mem)) g →
      ∃ s, (g, s) ∈ overridePairs ∧
        KeptName (pcre vt) licenseMap (searchText (cstr (pls.getLast hne).comments.mem)) s := by
    intro g hg
    rcases up g hg with h | h
    · rw [hnil] at h; cases h
    · exact h
  obtain ⟨s1, h1, k1⟩ := none lic.name ⟨i', lic, hl, rfl, hk⟩
  obtain ⟨s2, h2, k2⟩ := none s1 k1
  obtain ⟨s3, h3, _⟩ := none s2 k2
  have : ∀ a ∈ overridePairs, ∀ b ∈ overridePairs, ∀ c ∈ overridePairs, a.2 = b.1 → b.2 = c.1 → False := by
    decide
  exact this _ h1 _ h2 _ h3 rfl rfl

theorem endsWord_append_ne (x y : Bytes) (h : y ≠ []) : endsWord (x ++ y) = endsWord y := by
  rcases List.eq_nil_or_concat y with rfl | ⟨q, c, rfl⟩
  · exact absurd rfl h
  · simp [endsWord]

/-- The start of a line may be cut off, but not a name in it. -/
theorem drop_lead (a w : Bytes) (hw : w.head?.any (fun x => !isLead x) = true) :
    (a ++ w).dropWhile isLead = a.dropWhile isLead ++ w ∧
      (endsWord a = false → endsWord (a.dropWhile isLead) = false) := by
  constructor
  · rw [List.dropWhile_append]
    split
    · rename_i h
      rw [List.isEmpty_iff] at h
      rw [h]
      cases w with
      | nil => rfl
      | cons x w =>
        simp at hw
        simp [List.dropWhile_cons, hw]
    · rfl
  · intro h
    by_cases hd : a.dropWhile isLead = []
    · rw [hd]; rfl
    · rw [← h]
      conv => rhs; rw [← List.takeWhile_append_dropWhile (p := isLead) (l := a)]
      rw [endsWord_append_ne _ _ hd]

/-- The search text before a line ends with a space. -/
theorem endsWord_lines (ls : List Bytes) :
    endsWord (ls.flatMap fun l => l.dropWhile isLead ++ [32]) = false := by
  rcases List.eq_nil_or_concat ls with rfl | ⟨q, c, rfl⟩
  · rfl
  · simp [endsWord]; decide

/-- A line of the comments in the search text. -/
theorem line_in_text (s line a w b : Bytes) (hl : line ∈ pieces s) (he : line = a ++ (w ++ b))
    (hw : w.head?.any (fun x => !isLead x) = true) (ha : endsWord a = false)
    (hb : startsWord b = false) : ∃ before after, searchText s = before ++ (w ++ after) ∧
      endsWord before = false ∧ startsWord after = false := by
  obtain ⟨l1, l2, e⟩ := List.append_of_mem hl
  have hwb : (w ++ b).head?.any (fun x => !isLead x) = true := by
    cases w with
    | nil => cases hw
    | cons x w => exact hw
  obtain ⟨d1, d2⟩ := drop_lead a (w ++ b) hwb
  refine ⟨(l1.flatMap fun l => l.dropWhile isLead ++ [32]) ++ a.dropWhile isLead,
    b ++ 32 :: (l2.flatMap fun l => l.dropWhile isLead ++ [32]), ?_, ?_, ?_⟩
  · unfold searchText
    rw [e, List.flatMap_append, List.flatMap_cons, he, d1]
    simp
  · by_cases hd : a.dropWhile isLead = []
    · rw [hd, List.append_nil]; exact endsWord_lines l1
    · rw [endsWord_append_ne _ _ hd]; exact d2 ha
  · cases b with
    | nil => show isWord 32 = false; decide
    | cons x b => exact hb

theorem entry_license {j : Nat} {e : Entry} (he : entries[j]? = some e) :
    licenseMap[j]? = some ⟨e.name, e.exclude.isSome⟩ := by
  rw [← entries_ok.1, List.getElem?_map, he]; rfl

theorem excludes_unnamed : ∀ e ∈ entries, e.exclude.isSome = true → e.name ∈ unnamed := by
  have h : entries.all (fun e => !e.exclude.isSome || unnamed.contains e.name) = true := by
    decide +kernel
  intro e he hs
  have := List.all_eq_true.mp h e he
  simpa [hs] using this

theorem nice_first : ∀ e ∈ entries, (niceName e).head?.any (fun x => !isLead (lower x)) = true := by
  have h : entries.all (fun e => (niceName e).head?.any fun x => !isLead (lower x)) = true := by
    decide +kernel
  exact fun e he => List.all_eq_true.mp h e he

theorem first_lower {w n : Bytes} (h : w.map lower = n.map lower)
    (hn : n.head?.any (fun x => !isLead (lower x)) = true) : w.head?.any (fun x => !isLead x) = true := by
  have key : ∀ x : Byte, isLead (lower x) = isLead x ∨ isLead (lower x) = true := byte_forall (by decide +kernel)
  cases n with
  | nil => cases hn
  | cons y n =>
    cases w with
    | nil => cases h
    | cons x w =>
      simp only [List.map_cons, List.cons.injEq] at h
      simp only [List.head?_cons, Option.any_some, Bool.not_eq_true'] at hn ⊢
      rw [← h.1] at hn
      rcases key x with k | k
      · rw [← k, hn]
      · rw [k] at hn; cases hn

/-- C93: if a line of the comments of the last language of a file contains the nice name of
a license, in upper or lower case, as separate words, then a license is reported for the
file; but for the entries of `unnamed`, Apache and Eiffel. It is this one if no other
license is found. -/
theorem C93_line_partial (vt : Bool) (junk : Byte) (jp : Int × Int) (pls : List ParsedLanguage)
    (hne : pls ≠ []) (out : List String)
    (h : detectLicense (pcre vt) junk jp licenseMap pls = some out)
    (j : Nat) (e : Entry) (he : entries[j]? = some e) (hx : e.name ∉ unnamed)
    (h1 : e.name ≠ "apache") (h2 : e.name ≠ "eiffel") (line a w b : Bytes)
    (hl : line ∈ pieces (cstr (pls.getLast hne).comments.mem)) (hline : line = a ++ (w ++ b))
    (hw : w.map lower = (niceName e).map lower) (ha : endsWord a = false)
    (hb : startsWord b = false) :
    out ≠ [] ∧ ((∀ i m, Found (pcre vt) licenseMap
        (searchText (cstr (pls.getLast hne).comments.mem)) i m → i = j) → e.name ∈ out) := by
  have hmem := List.mem_of_getElem? he
  obtain ⟨before, after, et, hbe, haf⟩ := line_in_text _ line a w b hl hline
    (first_lower hw (nice_first e hmem)) ha hb
  have hf := C93_nice_name_partial vt j e he hx before w after hw hbe haf
    (fun h => (h.elim h1 h2).elim)
  rw [← et] at hf
  cases hm : (pcre vt).find j (searchText (cstr (pls.getLast hne).comments.mem)) with
  | none => exact absurd hm hf
  | some m =>
    have hfound : Found (pcre vt) licenseMap (searchText (cstr (pls.getLast hne).comments.mem)) j m :=
      ⟨_, entry_license he, hm, fun hs => absurd (excludes_unnamed e hmem hs) hx⟩
    refine ⟨found_reported vt junk jp pls hne out h j m hfound, fun only => ?_⟩
    refine (C26_reported_iff (pcre vt) junk jp licenseMap pls hne out h e.name).mpr
      ⟨⟨j, _, entry_license he, rfl, m, hfound, fun i' m' h' hin => ?_⟩, fun g s hp eg hk => ?_⟩
    · have := only i' m' h'
      subst this
      obtain ⟨_, _, hf', _⟩ := h'
      rw [hm] at hf'
      cases hf'
      exact hin.2.2 rfl
    · obtain ⟨i', lic, hi', hn', m', hfm, _⟩ := hk
      have := only i' m' hfm
      subst this
      rw [entry_license he] at hi'
      cases hi'
      have : ∀ p ∈ overridePairs, p.1 ≠ p.2 := by decide
      exact this _ hp (by rw [← eg]; exact hn')

/-- A concrete case: "MIT license" in a line of a comment. -/
example : detectLicense (pcre true) 0 (5, 5) licenseMap
    [plOf "c" (chars!"* under\n * the mIt License.\n".map byteOf ++ [0])] = some ["mit"] := by
  decide +kernel

/-! ### WTFPL -/

/-- C94, the full statement: the WTFPL is found by its name. -/
def C94_full : Prop :=
  ∀ (vt : Bool) (j : Nat) (e : Entry), entries[j]? = some e → e.name = "wtfpl_2" → ∀ t : Bytes,
    Occurs vt (words chars!"what_the_fuck_public_license") t → (pcre vt).find j t ≠ none

theorem spells_mem {vt : Bool} {c : Char} (h1 : c ≠ '_') (h2 : c ≠ '+') : ∀ {cs : List Char} {m : Bytes},
    c ∈ cs → Spells vt cs m → ∃ x ∈ m, lower x = byteOf c := by
  intro cs
  induction cs with
  | nil => intro m h; cases h
  | cons d cs ih =>
    intro m h hs
    simp only [Spells] at hs
    by_cases hd : d = '_'
    · rw [if_pos hd] at hs
      obtain ⟨s, r, rfl, _, hr⟩ := hs
      rcases List.mem_cons.mp h with e | e
      · exact absurd (e.trans hd) h1
      · obtain ⟨x, hx, hl⟩ := ih e hr
        exact ⟨x, List.mem_append_right _ hx, hl⟩
    · rw [if_neg hd] at hs
      by_cases hd2 : d = '+'
      · rw [if_pos hd2] at hs
        obtain ⟨s, r, rfl, _, _, hr⟩ := hs
        rcases List.mem_cons.mp h with e | e
        · exact absurd (e.trans hd2) h2
        · obtain ⟨x, hx, hl⟩ := ih e hr
          exact ⟨x, List.mem_append_right _ hx, hl⟩
      · rw [if_neg hd2] at hs
        obtain ⟨x, r, rfl, hx, hr⟩ := hs
        rcases List.mem_cons.mp h with e | e
        · exact ⟨x, List.mem_cons_self, e ▸ hx⟩
        · obtain ⟨y, hy, hl⟩ := ih e hr
          exact ⟨y, List.mem_cons_of_mem _ hy, hl⟩

theorem lower_ff (x : Byte) : lower x = 12 → x = 12 := by
  revert x; exact byte_forall (by decide +kernel)

/-- C94: in a text without a form feed the WTFPL is found only as "WTFPL" or "WTF public
license": in the expression, the first two characters of `\\fuck` are a form feed. -/
theorem C94_wtfpl_partial (vt : Bool) (j : Nat) (e : Entry) (he : entries[j]? = some e)
    (hn : e.name = "wtfpl_2") (t : Bytes) (ht : (12 : Byte) ∉ t) :
    (pcre vt).find j t ≠ none ↔
      Occurs vt (words chars!"wtfpl") t ∨ Occurs vt (words chars!"wtf_public_license") t := by
  rw [C92_found_iff vt "wtfpl_2" [words chars!"wtfpl", words chars!"wtf_public_license",
    words chars!"do_what_the_\x0cuck_public_license", words chars!"what_the_\x0cuck_public_license"]
    (by simp [namings]) j e he hn t]
  have no : ∀ p : Phrase, '\x0c' ∈ p.text → ¬ Occurs vt p t := by
    rintro p hp ⟨b, m, a, rfl, hs, _⟩
    obtain ⟨x, hx, hl⟩ := spells_mem (by decide) (by decide) hp hs
    have : x = 12 := lower_ff x (by rw [hl]; decide)
    subst this
    exact ht (List.mem_append_left _ (List.mem_append_right _ hx))
  constructor
  · rintro ⟨p, hp, ho⟩
    simp only [List.mem_cons, List.not_mem_nil, or_false] at hp
    rcases hp with rfl | rfl | rfl | rfl
    · exact Or.inl ho
    · exact Or.inr ho
    · exact absurd ho (no _ (by decide))
    · exact absurd ho (no _ (by decide))
  · rintro (h | h)
    · exact ⟨_, List.mem_cons_self, h⟩
    · exact ⟨_, List.mem_cons_of_mem _ List.mem_cons_self, h⟩

/-- The bytes of a text. -/
def textOf (cs : List Char) : Bytes := cs.map byteOf

theorem matches_row (vt : Bool) (t : Bytes) (l : List Rx) : ∀ i j,
    Matches vt t (l.foldr .cat .eps) i j ↔ InRow vt t l i j := by
  induction l with
  | nil => intro i j; exact Iff.rfl
  | cons r l ih => intro i j; simp only [List.foldr_cons, Matches, InRow, ih]

/-- Names can be looked for with the matcher. -/
theorem occurs_find (vt : Bool) (p : Phrase) (hp : p.ok = true) (t : Bytes) :
    Occurs vt p t ↔ (Pcre.find vt (p.parts.foldr .cat .eps) t).isSome = true := by
  rw [occurs_iff vt p hp t, Option.isSome_iff_ne_none, find_iff]
  simp only [matches_row]

theorem C94_negation : ¬ C94_full := by
  intro h
  refine h true 71 _ rfl rfl (textOf chars!"do what the fuck public license.") ?_ (by decide +kernel)
  exact (occurs_find _ _ (by decide) _).mpr (by decide +kernel)

/-- The condition of C94 is met: a text with the short name. -/
example : (12 : Byte) ∉ textOf chars!"the WTFPL." ∧ Occurs true (words chars!"wtfpl") (textOf chars!"the WTFPL.") :=
  ⟨by decide, (occurs_find _ _ (by decide) _).mpr (by decide +kernel)⟩

/-! ### Apache and Eiffel -/

/-- The text goes on with a 2, after nothing but white space and commas (and, if `v`, letters
V). -/
def TwoAfter (vt v : Bool) (s : Bytes) : Prop :=
  ∃ a b, s = a ++ 50 :: b ∧
    ∀ x ∈ a, isSpace vt x = true ∨ x = 44 ∨ (v = true ∧ (x = 86 ∨ x = 118))

/-- The expression that is not to match after the name of the Apache license, and of the
Eiffel license. -/
def twoRx (v : Bool) : Rx :=
  .cat (.rep (if v then [.fold 44, .fold 118, .space] else [.space, .fold 44]) 0 none) (.set [.fold 50])

theorem two_class (vt v : Bool) (x : Byte) :
    inClass vt (if v then [.fold 44, .fold 118, .space] else [.space, .fold 44]) x = true ↔
      isSpace vt x = true ∨ x = 44 ∨ (v = true ∧ (x = 86 ∨ x = 118)) := by
  cases vt <;> cases v <;> revert x <;> exact byte_forall (by decide +kernel)

theorem two_after (vt v : Bool) (b s : Bytes) :
    (∃ m, Matches vt (b ++ s) (twoRx v) b.length m) ↔ TwoAfter vt v s := by
  unfold twoRx
  constructor
  · rintro ⟨m, k, ⟨n, rfl, _, _, h3⟩, _, x, hx, hx2⟩
    have hx2 : x = 50 := lower_two x (by simpa [inClass, Atom.mem] using hx2)
    subst hx2
    rw [List.getElem?_append_right (by omega), Nat.add_sub_cancel_left] at hx
    obtain ⟨hlt, hx⟩ := List.getElem?_eq_some_iff.mp hx
    refine ⟨s.take n, s.drop (n + 1), ?_, fun x hx3 => ?_⟩
    · rw [← hx, ← List.drop_eq_getElem_cons hlt, List.take_append_drop]
    · obtain ⟨i, hi, e⟩ := List.mem_iff_getElem.mp hx3
      rw [List.length_take] at hi
      obtain ⟨y, hy, hc⟩ := h3 (b.length + i) (by omega) (by omega)
      rw [List.getElem?_append_right (by omega), Nat.add_sub_cancel_left,
        List.getElem?_eq_getElem (by omega)] at hy
      injection hy with hy
      rw [List.getElem_take] at e
      rw [← hy, e] at hc
      exact (two_class vt v x).mp hc
  · rintro ⟨a, r, rfl, ha⟩
    refine ⟨b.length + a.length + 1, b.length + a.length, ⟨a.length, rfl, Nat.zero_le _,
      fun h e => by (cases e), fun k h1 h2 => ?_⟩, rfl, 50, ?_, ?_⟩
    · have hk : k - b.length < a.length := by omega
      refine ⟨a[k - b.length], ?_, (two_class vt v _).mpr (ha _ (List.getElem_mem hk))⟩
      rw [List.getElem?_append_right h1, List.getElem?_append_left hk, List.getElem?_eq_getElem hk]
    · rw [List.getElem?_append_right (by omega), List.getElem?_append_right (by omega)]
      simp
    · cases vt <;> decide

/-- The name occurs in the text and no 2 follows. -/
def OccursNoTwo (vt v : Bool) (p : Phrase) (t : Bytes) : Prop :=
  ∃ before m after, t = before ++ m ++ after ∧ Spells vt p.text m ∧
    (p.left = true → endsWord before = false) ∧ (p.right = true → startsWord after = false) ∧
    ¬ TwoAfter vt v after

theorem noTwo_iff (vt v : Bool) (p : Phrase) (hp : p.ok = true) (t : Bytes) :
    OccursNoTwo vt v p t ↔ ∃ i j, i ≤ t.length ∧ InRow vt t (p.parts ++ [.notAhead (twoRx v)]) i j := by
  constructor
  · rintro ⟨b, m, a, e, hs, hl, hr, h2⟩
    obtain ⟨h1, h3⟩ := (parts_iff vt p hp t b.length (b.length + m.length)).mpr
      ⟨b, m, a, e, rfl, rfl, hs, hl, hr⟩
    refine ⟨_, _, h1, (inRow_append ..).mpr ⟨_, h3, (inRow_one ..).mpr ⟨rfl, ?_⟩⟩⟩
    have := (two_after vt v (b ++ m) a)
    rw [List.length_append, ← e] at this
    rw [this]; exact h2
  · rintro ⟨i, j, hi, h⟩
    obtain ⟨k, h1, h2⟩ := (inRow_append ..).mp h
    obtain ⟨b, m, a, e, rfl, rfl, hs, hl, hr⟩ := (parts_iff vt p hp t i k).mp ⟨hi, h1⟩
    rw [inRow_one] at h2
    refine ⟨b, m, a, e, hs, hl, hr, fun hc => h2.2 ?_⟩
    have := (two_after vt v (b ++ m) a)
    rw [List.length_append, ← e] at this
    exact this.mpr hc

/-- C95, the full statement: a text that names the Apache license is found to be under it,
or under its version 2. -/
def C95_full : Prop :=
  ∀ (vt : Bool) (t : Bytes), (Occurs vt (words chars!"apache_software_license") t ∨
      Occurs vt (words chars!"apache_license") t) →
    ∃ j e, entries[j]? = some e ∧ (e.name = "apache" ∨ e.name = "apache_2") ∧ (pcre vt).find j t ≠ none

/-- C95: the Apache license is found exactly if its name occurs and no 2 follows, but for
white space and commas. -/
theorem C95_apache_partial (vt : Bool) (j : Nat) (e : Entry) (he : entries[j]? = some e)
    (hn : e.name = "apache") (t : Bytes) : (pcre vt).find j t ≠ none ↔
      OccursNoTwo vt false (startOf chars!"apache_software_license") t ∨
      OccursNoTwo vt false (startOf chars!"apache_license") t := by
  have hr := entry_of_name (f := fun e => rows e ==
      some [(startOf chars!"apache_software_license").parts ++ [.notAhead (twoRx false)],
        (startOf chars!"apache_license").parts ++ [.notAhead (twoRx false)]])
    (by decide +kernel) he hn
  rw [beq_iff_eq] at hr
  rw [find_rows he hr, noTwo_iff _ _ _ (by decide), noTwo_iff _ _ _ (by decide)]
  constructor
  · rintro ⟨i, k, hi, s, hs, h⟩
    simp only [List.mem_cons, List.not_mem_nil, or_false] at hs
    rcases hs with rfl | rfl
    · exact Or.inl ⟨i, k, hi, h⟩
    · exact Or.inr ⟨i, k, hi, h⟩
  · rintro (⟨i, k, hi, h⟩ | ⟨i, k, hi, h⟩)
    · exact ⟨i, k, hi, _, List.mem_cons_self, h⟩
    · exact ⟨i, k, hi, _, List.mem_cons_of_mem _ List.mem_cons_self, h⟩

/-- C95: the Eiffel license is found exactly if its name occurs as separate words and no 2
follows, but for white space, commas and letters V. -/
theorem C95_eiffel (vt : Bool) (j : Nat) (e : Entry) (he : entries[j]? = some e)
    (hn : e.name = "eiffel") (t : Bytes) : (pcre vt).find j t ≠ none ↔
      OccursNoTwo vt true (words chars!"eiffel_forum_license") t := by
  have hr := entry_of_name (f := fun e => rows e ==
      some [(startOf chars!"eiffel_forum_license").parts ++ ([.notAhead (twoRx true)] ++ [.bound])])
    (by decide +kernel) he hn
  rw [beq_iff_eq] at hr
  rw [find_rows he hr, noTwo_iff _ _ _ (by decide)]
  have hw : (words chars!"eiffel_forum_license").parts =
      (startOf chars!"eiffel_forum_license").parts ++ [.bound] := by decide
  simp only [List.mem_singleton, exists_eq_left, hw, inRow_append, inRow_one]
  constructor
  · rintro ⟨i, k, hi, m, h1, m', ⟨rfl, h2⟩, rfl, h3⟩
    exact ⟨i, m, hi, m, ⟨m, h1, rfl, h3⟩, rfl, h2⟩
  · rintro ⟨i, k, hi, m, ⟨m', h1, rfl, h3⟩, rfl, h2⟩
    exact ⟨i, m', hi, m', h1, m', ⟨rfl, h2⟩, rfl, h3⟩

/-- C95: what goes by the name of the Apache license and goes on with a 2, is found as
version 2 if there is white space between the words and before the 2, and at most one
comma, directly after the name. -/
theorem C95_apache2 (vt : Bool) (j : Nat) (e : Entry) (he : entries[j]? = some e)
    (hn : e.name = "apache_2") (t : Bytes)
    (h : Occurs vt (startOf chars!"apache+license+2") t ∨ Occurs vt (startOf chars!"apache+license,+2") t ∨
      Occurs vt (startOf chars!"apache+license,+version+2") t ∨
      Occurs vt (startOf chars!"apache+license+version+2") t) : (pcre vt).find j t ≠ none := by
  have hm : ("apache_2", [startOf chars!"apache+software+license,+version+2",
      startOf chars!"apache+software+license,+2", startOf chars!"apache+software+license+version+2",
      startOf chars!"apache+software+license+2", startOf chars!"apache+license,+version+2",
      startOf chars!"apache+license,+2", startOf chars!"apache+license+version+2",
      startOf chars!"apache+license+2"]) ∈ namings := by simp [namings]
  rw [C92_found_iff vt "apache_2" _ hm j e he hn t]
  rcases h with h | h | h | h
  · exact ⟨_, by simp, h⟩
  · exact ⟨_, by simp, h⟩
  · exact ⟨_, by simp, h⟩
  · exact ⟨_, by simp, h⟩

theorem C95_negation : ¬ C95_full := by
  intro h
  obtain ⟨j, e, he, hn, hf⟩ := h true (textOf chars!"under the Apache License,2.0.")
    (Or.inr ((occurs_find _ _ (by decide) _).mpr (by decide +kernel)))
  have hj : j < 72 := (List.getElem?_eq_some_iff.mp he).1
  have key : (List.range 72).all (fun j => match entries[j]? with
      | none => true
      | some e => !(e.name == "apache" || e.name == "apache_2") ||
          ((pcre true).find j (textOf chars!"under the Apache License,2.0.")).isNone) = true := by
    decide +kernel
  have := List.all_eq_true.mp key j (List.mem_range.mpr hj)
  rw [he] at this
  rcases hn with hn | hn <;> simp [hn] at this <;> exact hf this

/-- Concrete cases: the name with and without a 2 after it. -/
example : OccursNoTwo true false (startOf chars!"apache_license") (textOf chars!"an Apache License. 2 more") ∧
    TwoAfter true false (textOf chars!" , 2.0") :=
  ⟨⟨textOf chars!"an ", textOf chars!"Apache License", textOf chars!". 2 more", by decide,
    by
      refine ⟨65, _, rfl, by decide, 112, _, rfl, by decide, 97, _, rfl, by decide, 99, _, rfl, by decide,
        104, _, rfl, by decide, 101, _, rfl, by decide, [32], textOf chars!"License", rfl, by decide, ?_⟩
      exact ⟨76, _, rfl, by decide, 105, _, rfl, by decide, 99, _, rfl, by decide, 101, _, rfl, by decide,
        110, _, rfl, by decide, 115, _, rfl, by decide, 101, _, rfl, by decide, rfl⟩,
    fun _ => by decide, fun h => by (cases h), by
      rintro ⟨a, b, h, ha⟩
      cases a with
      | nil => cases h
      | cons x a =>
        have hx : x = 46 := (List.cons.inj h).1.symm
        have := ha x List.mem_cons_self
        rw [hx] at this
        revert this; decide⟩,
   ⟨textOf chars!" , ", textOf chars!".0", by decide, by decide⟩⟩

/-! ### GPL 3 -/

/-- The text contains the name of the GPL, at most 100 bytes later " 3", possibly after
"version", and at most 50 bytes after that "later". -/
def ThreeLater (vt : Bool) (t : Bytes) : Prop :=
  ∃ before name gap three gap' later after,
    t = before ++ (name ++ (gap ++ (three ++ (gap' ++ (later ++ after))))) ∧
    endsWord before = false ∧
    (Spells vt chars!"gnu general public license" name ∨ Spells vt chars!"gpl" name) ∧
    gap.length ≤ 100 ∧ (Spells vt chars!"version 3" three ∨ Spells vt chars!" 3" three) ∧
    gap'.length ≤ 50 ∧ Spells vt chars!"later" later

theorem dots_iff (vt : Bool) (t : Bytes) (n i j : Nat) (hi : i ≤ t.length) :
    Matches vt t (.rep [.dot true] 0 (some n)) i j ↔ i ≤ j ∧ j ≤ i + n ∧ j ≤ t.length := by
  constructor
  · intro h
    obtain ⟨m, rfl, _, h2, _⟩ := id h
    exact ⟨by omega, by have := h2 n rfl; omega, h.inside hi⟩
  · rintro ⟨h1, h2, h3⟩
    refine ⟨j - i, by omega, Nat.zero_le _, fun h e => by cases e; omega, fun p hp1 hp2 => ?_⟩
    exact ⟨t[p], List.getElem?_eq_getElem (by omega), by simp [inClass, Atom.mem]⟩

/-- A stretch of a text, and what is before and after it. -/
theorem split_at (t : Bytes) (i j : Nat) (h : i ≤ j) (hj : j ≤ t.length) :
    t.drop i = (t.drop i).take (j - i) ++ t.drop j ∧ ((t.drop i).take (j - i)).length = j - i := by
  constructor
  · conv => lhs; rw [← List.take_append_drop (j - i) (t.drop i)]
    rw [List.drop_drop, show i + (j - i) = j by omega]
  · rw [List.length_take, List.length_drop]; omega

/-- The parts of the expression for a name and a way to write 3. -/
def threeRow (name three : List Char) : List Rx :=
  (startOf name).parts ++ ([.rep [.dot true] 0 (some 100)] ++ (three.map leaf ++
    ([.rep [.dot true] 0 (some 50)] ++ chars!"later".map leaf)))

theorem threeRow_iff (vt : Bool) (name three : List Char) (hp : (startOf name).ok = true) (t : Bytes) :
    (∃ i j, i ≤ t.length ∧ InRow vt t (threeRow name three) i j) ↔
      ∃ before n gap v gap' later after,
        t = before ++ (n ++ (gap ++ (v ++ (gap' ++ (later ++ after))))) ∧ endsWord before = false ∧
        Spells vt name n ∧ gap.length ≤ 100 ∧ Spells vt three v ∧ gap'.length ≤ 50 ∧
        Spells vt chars!"later" later := by
  unfold threeRow
  constructor
  · rintro ⟨i, j, hi, h⟩
    rw [inRow_append] at h
    obtain ⟨i1, h1, h⟩ := h
    rw [inRow_append] at h
    obtain ⟨i2, h2, h⟩ := h
    rw [inRow_append] at h
    obtain ⟨i3, h3, h⟩ := h
    rw [inRow_append] at h
    obtain ⟨i4, h4, h5⟩ := h
    have l1 := h1.inside hi
    rw [inRow_one] at h2 h4
    obtain ⟨b, n, a, e, rfl, rfl, hs, hl, _⟩ := (parts_iff vt _ hp t i i1).mp ⟨hi, h1⟩
    obtain ⟨a1, a2, a3⟩ := (dots_iff vt t 100 _ _ l1).mp h2
    have l3 := h3.inside a3
    obtain ⟨b1, b2, b3⟩ := (dots_iff vt t 50 _ _ l3).mp h4
    have l5 := h5.inside b3
    have ea : a = t.drop (b.length + n.length) := by
      rw [e, ← List.length_append, List.drop_left]
    have s1 := split_at t _ _ a1 a3
    have s2 := split_at t _ _ h3.le l3
    have s3 := split_at t _ _ b1 b3
    have s4 := split_at t _ _ h5.le l5
    refine ⟨b, n, (t.drop (b.length + n.length)).take (i2 - (b.length + n.length)), _,
      (t.drop i3).take (i4 - i3), _, t.drop j, ?_, hl rfl, hs, ?_, spells_of_row _ _ _ h3, ?_,
      spells_of_row _ _ _ h5⟩
    · rw [← s4.1, ← s3.1, ← s2.1, ← s1.1, ← ea, ← List.append_assoc]; exact e
    · rw [s1.2]; omega
    · rw [s3.2]; omega
  · rintro ⟨b, n, g, v, g', l, a, e, hb, hn, hg, hv, hg', hl⟩
    have p1 := ((parts_iff vt _ hp t b.length (b.length + n.length)).mpr
      ⟨b, n, g ++ (v ++ (g' ++ (l ++ a))), by rw [e, List.append_assoc], rfl, rfl, hn, fun _ => hb,
        fun h => by (cases h)⟩)
    have hlen : t.length = b.length + n.length + g.length + v.length + g'.length + l.length + a.length := by
      rw [e]; simp only [List.length_append]; omega
    refine ⟨_, b.length + n.length + g.length + v.length + g'.length + l.length, p1.1, ?_⟩
    rw [inRow_append]
    refine ⟨_, p1.2, ?_⟩
    rw [inRow_append]
    refine ⟨b.length + n.length + g.length, ?_, ?_⟩
    · rw [inRow_one]; exact (dots_iff vt t 100 _ _ (by omega)).mpr ⟨by omega, by omega, by omega⟩
    rw [inRow_append]
    refine ⟨b.length + n.length + g.length + v.length, ?_, ?_⟩
    · have := row_of_spells three (b ++ n ++ g) v (g' ++ (l ++ a)) hv
      simpa [e, List.append_assoc, Nat.add_assoc] using this
    rw [inRow_append]
    refine ⟨b.length + n.length + g.length + v.length + g'.length, ?_, ?_⟩
    · rw [inRow_one]; exact (dots_iff vt t 50 _ _ (by omega)).mpr ⟨by omega, by omega, by omega⟩
    · have := row_of_spells chars!"later" (b ++ n ++ g ++ v ++ g') l a hl
      simpa [e, List.append_assoc, Nat.add_assoc] using this

/-- C96, the full statement: a file is found to be under the GPL version 3 or later only if
its text has a 3 as the version of a license. -/
def C96_full : Prop :=
  ∀ (vt : Bool) (j : Nat) (e : Entry), entries[j]? = some e → e.name = "gpl3_or_later" → ∀ t : Bytes,
    (pcre vt).find j t ≠ none →
      Occurs vt (anywhere chars!"version_3") t ∨ Occurs vt (anywhere chars!"v3") t ∨
      Occurs vt (anywhere chars!"gpl_3") t ∨ Occurs vt (anywhere chars!"license_3") t

/-- C96: the GPL 3 or later is found exactly if the name of the GPL is followed, within 100
bytes, by a 3 after a space and, within 50 bytes of that, by "later". -/
theorem C96_gpl3_or_later_partial (vt : Bool) (j : Nat) (e : Entry) (he : entries[j]? = some e)
    (hn : e.name = "gpl3_or_later") (t : Bytes) : (pcre vt).find j t ≠ none ↔ ThreeLater vt t := by
  have hr := entry_of_name (f := fun e => rows e ==
      some [threeRow chars!"gnu general public license" chars!"version 3",
        threeRow chars!"gnu general public license" chars!" 3",
        threeRow chars!"gpl" chars!"version 3", threeRow chars!"gpl" chars!" 3"])
    (by decide +kernel) he hn
  rw [beq_iff_eq] at hr
  rw [find_rows he hr]
  constructor
  · rintro ⟨i, k, hi, s, hs, h⟩
    simp only [List.mem_cons, List.not_mem_nil, or_false] at hs
    rcases hs with rfl | rfl | rfl | rfl <;>
      obtain ⟨b, n, g, v, g', l, a, e, hb, h1, h2, h3, h4, h5⟩ :=
        (threeRow_iff vt _ _ (by decide) t).mp ⟨i, k, hi, h⟩
    · exact ⟨b, n, g, v, g', l, a, e, hb, Or.inl h1, h2, Or.inl h3, h4, h5⟩
    · exact ⟨b, n, g, v, g', l, a, e, hb, Or.inl h1, h2, Or.inr h3, h4, h5⟩
    · exact ⟨b, n, g, v, g', l, a, e, hb, Or.inr h1, h2, Or.inl h3, h4, h5⟩
    · exact ⟨b, n, g, v, g', l, a, e, hb, Or.inr h1, h2, Or.inr h3, h4, h5⟩
  · rintro ⟨b, n, g, v, g', l, a, e, hb, h1, h2, h3, h4, h5⟩
    rcases h1 with h1 | h1 <;> rcases h3 with h3 | h3 <;>
      obtain ⟨i, k, hi, h⟩ := (threeRow_iff vt _ _ (by decide) t).mpr
        ⟨b, n, g, v, g', l, a, e, hb, h1, h2, h3, h4, h5⟩ <;>
      exact ⟨i, k, hi, _, by simp, h⟩

/-- A concrete case: the usual notice, in part. -/
example : ThreeLater true (textOf chars!"the GPL; either version 3, or any later version") :=
  (C96_gpl3_or_later_partial true 25 _ rfl rfl _).mp (by decide +kernel)

/-- A notice of the GPL version 2. -/
def gpl2Notice : List Char := chars!"GNU GPL version 2; see clause 3, not later\n"

/-- It is reported as version 3 or later, and as nothing else. -/
theorem C96_gpl2_notice :
    detectLicense (pcre true) 0 (5, 5) licenseMap [plOf "c" (textOf gpl2Notice ++ [0])] =
      some ["gpl3_or_later"] := by
  decide +kernel

theorem C96_negation : ¬ C96_full := by
  intro h
  have := h true 25 _ rfl rfl (textOf gpl2Notice) (by decide +kernel)
  rw [occurs_find _ _ (by decide), occurs_find _ _ (by decide), occurs_find _ _ (by decide),
    occurs_find _ _ (by decide)] at this
  revert this
  decide +kernel

/-! ### Mozilla -/

/-- C97, the full statement: the Mozilla license 1.1 is found by its name and version. -/
def C97_full : Prop :=
  ∀ (vt : Bool) (j : Nat) (e : Entry), entries[j]? = some e → e.name = "mozilla_public_1_1" →
    ∀ t : Bytes, (Occurs vt (words chars!"mozilla_public_license_1.1") t ∨
      Occurs vt (words chars!"mozilla_public_license_version_1.1") t) → (pcre vt).find j t ≠ none

/-- C97: the Mozilla license 1.1 is found if there is one blank between the name and
the version, and nothing else. -/
theorem C97_mozilla_partial (vt : Bool) (j : Nat) (e : Entry) (he : entries[j]? = some e)
    (hn : e.name = "mozilla_public_1_1") (t : Bytes) : (pcre vt).find j t ≠ none ↔
      Occurs vt (words chars!"mozilla_public_license 1.1") t := by
  rw [C92_found_iff vt "mozilla_public_1_1" [words chars!"mozilla_public_license 1.1"]
    (by simp [namings]) j e he hn t]
  simp

/-- The usual notice, in part. -/
def mplNotice : List Char :=
  chars!"subject to the Mozilla Public License Version\n * 1.1 (the License)\n"

/-- It is reported as version 1.0. -/
theorem C97_notice :
    detectLicense (pcre true) 0 (5, 5) licenseMap [plOf "c" (textOf mplNotice ++ [0])] =
      some ["mozilla_public_1"] := by
  decide +kernel

theorem C97_negation : ¬ C97_full := by
  intro h
  refine h true 41 _ rfl rfl (textOf chars!"Mozilla Public License Version 1.1") ?_ (by decide +kernel)
  exact Or.inr ((occurs_find _ _ (by decide) _).mpr (by decide +kernel))

end Ohcount.Licenses
