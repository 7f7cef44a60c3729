import Verif.KnownFile
import Verif.LicensePieces

/-!
From files to licenses (C101): the reading of a file, the line parser, the collection of the
comments and the search for licenses put together.
-/

namespace Ohcount.Licenses

open Ohcount Ohcount.Pcre Ohcount.Diff Ohcount.Ragel Ohcount.ParsedLanguageProps Ohcount.SourceFileProps
  Ohcount.LibraryProps

/-! ### Lines of the comments -/

theorem endsWord_suffix {x y : Bytes} (h : y <:+ x) (hx : endsWord x = false) : endsWord y = false := by
  obtain ⟨z, rfl⟩ := h
  by_cases hy : y = []
  · rw [hy]; rfl
  · rwa [endsWord_append_ne _ _ hy] at hx

/-- A name in the comments is in one of their lines. -/
theorem in_piece (w : Bytes) (hw : w ≠ []) (hn : ∀ x ∈ w, notNl x = true) : ∀ (n : Nat) (X Y : Bytes), X.length ≤ n →
    endsWord X = false → startsWord Y = false →
    ∃ a b, a ++ (w ++ b) ∈ pieces (X ++ (w ++ Y)) ∧ endsWord a = false ∧ startsWord b = false := by
  intro n
  induction n with
  | zero =>
    intro X Y hX hx hy
    have : X = [] := List.eq_nil_of_length_eq_zero (by omega)
    subst this
    rw [List.nil_append, pieces_cons _ (by simp [hw])]
    refine ⟨[], Y.takeWhile notNl, ?_, rfl, ?_⟩
    · rw [List.takeWhile_append_of_pos hn]; simp
    · cases Y with
      | nil => rfl
      | cons y Y =>
        rw [List.takeWhile_cons]
        split
        · exact hy
        · rfl
  | succ n ih =>
    intro X Y hX hx hy
    by_cases hall : ∀ x ∈ X, notNl x = true
    · rw [pieces_cons _ (by simp [hw])]
      refine ⟨X, Y.takeWhile notNl, ?_, hx, ?_⟩
      · rw [List.takeWhile_append_of_pos hall, List.takeWhile_append_of_pos hn]; simp
      · cases Y with
        | nil => rfl
        | cons y Y =>
          rw [List.takeWhile_cons]
          split
          · exact hy
          · rfl
    · have hd : X.dropWhile notNl ≠ [] := by
        intro h
        exact hall fun x hx => by
          have := List.takeWhile_append_dropWhile (p := notNl) (l := X)
          rw [h, List.append_nil] at this
          rw [← this] at hx
          exact List.all_eq_true.mp List.all_takeWhile x hx
      have e1 : (X ++ (w ++ Y)).dropWhile notNl = X.dropWhile notNl ++ (w ++ Y) := by
        rw [List.dropWhile_append, if_neg (by simpa using hd)]
      have e2 : (X.dropWhile notNl ++ (w ++ Y)).dropWhile isNl = (X.dropWhile notNl).dropWhile isNl ++ (w ++ Y) := by
        rw [List.dropWhile_append]
        split
        · rename_i h
          rw [List.isEmpty_iff] at h
          rw [h]
          cases w with
          | nil => exact absurd rfl hw
          | cons x w =>
            have := hn x (by simp)
            unfold notNl at this
            rw [Bool.not_eq_true'] at this
            simp [List.dropWhile_cons, this]
        · rfl
      rw [pieces_cons _ (by simp [hw]), e1, e2]
      have hs : (X.dropWhile notNl).dropWhile isNl <:+ X :=
        (List.dropWhile_suffix _).trans (List.dropWhile_suffix _)
      have hl : ((X.dropWhile notNl).dropWhile isNl).length ≤ n := by
        cases hX' : X.dropWhile notNl with
        | nil => exact absurd hX' hd
        | cons y r =>
          have hy' : notNl y = false := by
            have := List.head?_dropWhile_not notNl X
            rw [hX'] at this
            simpa using this
          have : isNl y = true := by unfold notNl at hy'; simpa using hy'
          rw [List.dropWhile_cons, if_pos this]
          have l1 := (List.dropWhile_suffix isNl (l := r)).length_le
          have l2 := (List.dropWhile_suffix notNl (l := X)).length_le
          rw [hX', List.length_cons] at l2
          omega
      obtain ⟨a, b, h1, h2, h3⟩ := ih _ Y hl (endsWord_suffix hs hx) hy
      exact ⟨a, b, List.mem_cons_of_mem _ h1, h2, h3⟩

theorem each_split {α β : Type} {R : α → β → Prop} {xs : List α} {rs : List β} (h : Each R xs rs) {x : α} (hx : x ∈ xs) :
    ∃ x1 x2 r1 r r2, xs = x1 ++ x :: x2 ∧ rs = r1 ++ r :: r2 ∧ Each R x1 r1 ∧ R x r ∧ Each R x2 r2 := by
  induction h with
  | nil => cases hx
  | cons h1 h2 ih =>
    rename_i a b l r
    rcases List.mem_cons.mp hx with rfl | hx
    · exact ⟨[], l, [], b, r, rfl, rfl, .nil, h1, h2⟩
    · obtain ⟨x1, x2, r1, r', r2, e1, e2, h3, h4, h5⟩ := ih hx
      exact ⟨a :: x1, x2, b :: r1, r', r2, by rw [e1]; rfl, by rw [e2]; rfl, .cons h1 h3, h4, h5⟩

theorem endsWord_flatMap {α : Type} (f : α → Bytes) : ∀ l : List α, (∀ x ∈ l, endsWord (f x) = false) →
    endsWord (l.flatMap f) = false := by
  intro l
  induction l with
  | nil => intro _; rfl
  | cons a l ih =>
    intro h
    rw [List.flatMap_cons]
    by_cases hl : l.flatMap f = []
    · rw [hl, List.append_nil]; exact h a (by simp)
    · rw [endsWord_append_ne _ _ hl]; exact ih fun x hx => h x (by simp [hx])

theorem last_of_range (t : Bytes) (s e : Nat) (h1 : s < e) (h2 : e ≤ t.length) :
    ((t.take e).drop s).getLast? = t[e - 1]? := by
  rw [List.getLast?_eq_getElem?, List.length_drop, List.length_take, Nat.min_eq_left h2, List.getElem?_drop,
    List.getElem?_take_of_lt (by omega), show s + (e - s - 1) = e - 1 by omega]

/-- A line end is not part of a word, and below the blank. -/
theorem lineEnd_byte {t : Bytes} {e : Nat} (h : lineEnd t e = true) :
    ∃ b, t[e - 1]? = some b ∧ isWord b = false ∧ b < 32 := by
  cases e with
  | zero => cases h
  | succ p =>
    simp only [lineEnd] at h
    rw [Nat.add_sub_cancel]
    cases hb : t[p]? with
    | none => rw [hb] at h; cases h
    | some b =>
      rw [hb] at h
      simp only [Bool.or_eq_true, Bool.and_eq_true, beq_iff_eq] at h
      refine ⟨b, rfl, ?_⟩
      rcases h with (rfl | rfl) | ⟨rfl, _⟩ <;> decide

theorem endsWord_line {t : Bytes} {lang : String} {x : Nat × Nat × Kind} {r : Rep} (h : ForLine x r)
    (hl : lineEnd t x.2.1 = true) : endsWord (stripped t ⟨lang, r.kind, r.s, r.e⟩) = false := by
  obtain ⟨_, h2, _, h4, _⟩ := h
  refine endsWord_suffix (List.dropWhile_suffix _) ?_
  simp only [Int.toNat_natCast]
  obtain ⟨b, hb, hw, _⟩ := lineEnd_byte hl
  have hle := (List.getElem?_eq_some_iff.mp hb).1
  unfold endsWord
  rw [last_of_range t r.s r.e h4 (by omega), h2, hb]
  exact hw

/-- A name in a line of a comment is in the collected comments, as separate words. -/
theorem name_collected (t : Bytes) (lang : String) (xs : List (Nat × Nat × Kind)) (rs : List Rep)
    (h : Each ForLine xs rs) (f1 : xs.Pairwise fun x y => x.2.1 ≤ y.1)
    (f2 : ∀ x ∈ xs, lineEnd t x.2.1 = true ∨ x.2.1 = t.length) (s e : Nat) (hx : (s, e, Kind.lcomment) ∈ xs)
    (a w b : Bytes) (hline : (t.take e).drop s = a ++ (w ++ b)) (hw : w.head?.any (fun x => !isLead x) = true)
    (h32 : ∀ x ∈ w, (32 : Byte) ≤ x) (ha : endsWord a = false) (hb : startsWord b = false) :
    ∃ X Y, ((rs.map fun r => (⟨lang, r.kind, r.s, r.e⟩ : Report)).filter
        fun r => decide (r.lang = lang) && decide (r.kind = .lcomment)).flatMap (stripped t) = X ++ (w ++ Y) ∧
      endsWord X = false ∧ startsWord Y = false := by
  obtain ⟨x1, x2, r1, r, r2, rfl, rfl, h1, hr, h2⟩ := each_split h hx
  obtain ⟨k1, k2, k3, k4, k5⟩ := id hr
  simp only at k1 k2 k3 k4 k5
  have k6 : r.s = s := k5 (by rw [k1]; decide)
  have hwne : w ≠ [] := by rintro rfl; cases hw
  have hle : e ≤ t.length := by
    rcases f2 _ hx with h' | h'
    · obtain ⟨_, hb', _⟩ := lineEnd_byte h'
      have := (List.getElem?_eq_some_iff.mp hb').1
      simp only at this; omega
    · simp only at h'; omega
  rw [List.pairwise_append] at f1
  obtain ⟨_, f3, f4⟩ := f1
  have hstr : stripped t ⟨lang, r.kind, r.s, r.e⟩ = (a.dropWhile fun b => b == 0x20 || b == 0x09) ++ (w ++ b) := by
    simp only [stripped, Int.toNat_natCast, k6, k2]
    rw [hline, List.dropWhile_append]
    split
    · rename_i hn
      rw [List.isEmpty_iff] at hn
      rw [hn]
      cases w with
      | nil => exact absurd rfl hwne
      | cons y w =>
        have hy : isLead y = false := by simpa using hw
        have key : ∀ y : Byte, isLead y = false → (y == 0x20 || y == 0x09) = false := byte_forall (by decide +kernel)
        simp only [List.cons_append, List.nil_append, List.dropWhile_cons, key y hy, Bool.false_eq_true, if_false]
    · rfl
  let F (l : List Rep) : Bytes := ((l.map fun r => (⟨lang, r.kind, r.s, r.e⟩ : Report)).filter
        fun r => decide (r.lang = lang) && decide (r.kind = .lcomment)).flatMap (stripped t)
  have hF : F (r1 ++ r :: r2) = F r1 ++ (stripped t ⟨lang, r.kind, r.s, r.e⟩ ++ F r2) := by
    simp only [F, List.map_append, List.map_cons, List.filter_append, List.filter_cons, k1, decide_true,
      Bool.and_self, if_true, List.flatMap_append, List.flatMap_cons]
  refine ⟨F r1 ++ (a.dropWhile fun b => b == 0x20 || b == 0x09), b ++ F r2, ?_, ?_, ?_⟩
  · show F (r1 ++ r :: r2) = _
    rw [hF, hstr]; simp
  · have hF1 : endsWord (F r1) = false := by
      apply endsWord_flatMap
      intro z hz
      obtain ⟨y, hy, rfl⟩ := List.mem_map.mp (List.mem_filter.mp hz).1
      obtain ⟨x, hx', hxy⟩ := each_mem h1 hy
      have : x.2.1 ≤ s := f4 x hx' (s, e, .lcomment) (by simp)
      refine endsWord_line hxy ?_
      rcases f2 x (by simp [hx']) with h' | h'
      · exact h'
      · omega
    by_cases hd : (a.dropWhile fun b => b == 0x20 || b == 0x09) = []
    · rw [hd, List.append_nil]; exact hF1
    · rw [endsWord_append_ne _ _ hd]; exact endsWord_suffix (List.dropWhile_suffix _) ha
  · cases b with
    | cons y b => exact hb
    | nil =>
      have hend : e = t.length := by
        rcases f2 _ hx with h' | h'
        · obtain ⟨c, hc, _, hc32⟩ := lineEnd_byte h'
          have hl := last_of_range t s e (by omega) hle
          rw [hline, List.append_nil, List.getLast?_append, List.getLast?_eq_some_getLast hwne, Option.some_or,
            ← List.getLast?_eq_some_getLast hwne] at hl
          rw [show t[e - 1]? = some c from hc] at hl
          exact absurd (h32 c (List.mem_of_getLast? hl)) (by simpa using hc32)
        · exact h'
      have : x2 = [] := by
        cases x2 with
        | nil => rfl
        | cons y x2 =>
          exfalso
          have hy := (List.pairwise_cons.mp f3).1 y (by simp)
          cases h2 with
          | cons h5 _ =>
            obtain ⟨_, g2, g3, g4, _⟩ := h5
            have : y.2.1 ≤ t.length := by
              rcases f2 y (by simp) with h' | h'
              · obtain ⟨_, hb', _⟩ := lineEnd_byte h'
                have := (List.getElem?_eq_some_iff.mp hb').1
                omega
              · omega
            simp only at hy
            omega
      subst this
      cases h2
      rfl

/-! ### C101 -/

theorem nice_printable : ∀ e ∈ entries, ∀ x ∈ niceName e, (32 : Byte) ≤ Pcre.lower x := by
  have h : entries.all (fun e => (niceName e).all fun x => decide ((32 : Byte) ≤ Pcre.lower x)) = true := by decide +kernel
  intro e he x hx
  simpa using List.all_eq_true.mp (List.all_eq_true.mp h e he) x hx

/-- The lines of comment of a file, without the blanks and tabs before them. -/
def commentLines (text : Bytes) (xs : List (Nat × Nat × Kind)) : List Bytes :=
  (xs.filter fun x => x.2.2 == .lcomment).map fun x =>
    ((text.take x.2.1).drop x.1).dropWhile fun b => b == 0x20 || b == 0x09

/-- The licenses of a file with lines are searched for in its lines of comment. -/
theorem known_licenses (mc : Host) (before : Byte) (disk : Disk)
    (path : Bytes) (lang : String) (xs : List (Nat × Nat × Kind)) (h : Known disk path lang xs) (text : Bytes)
    (hd : disk path = some text) (h0 : (0 : Byte) ∉ text) :
    ∃ world pls out, step (library mc) ⟨SourceFile.new before path, disk⟩ .getLicenses = some (world, .licenses out) ∧
      detectLicense mc.engine mc.junk mc.junkPs licenseMap pls = some out ∧
      (xs = [] → pls = []) ∧ (xs ≠ [] → pls ≠ []) ∧
      ∀ hne : pls ≠ [], cstr (pls.getLast hne).comments.mem = (commentLines text xs).flatten := by
  obtain ⟨sf, pls, hp, hpl, hn, hall⟩ := known_parsed mc before disk path lang xs h text hd h0
  obtain ⟨out, hout⟩ := C24_defined mc.engine mc.junk mc.junkPs licenseMap pls
  refine ⟨⟨{ sf with licenses := some out }, disk⟩, pls, out, ?_, hout, ?_, ?_, ?_⟩
  · have hl : (SourceFile.new before path).licenses = none := rfl
    have hlib : (library mc).detectLicenses pls = out := by
      simp only [library, hout, Option.getD_some]
    simp only [step, SourceFile.computeLicenses, hl, hp, Option.bind_some, hpl, Option.getD_some, hlib]
  · intro he
    rw [if_pos he] at hn
    exact List.map_eq_nil_iff.mp hn
  · intro he hp
    rw [if_neg he, hp] at hn
    cases hn
  · intro hne
    exact (hall _ (List.getLast_mem hne)).2.2.1

/-- C101: if a comment line of a file contains the nice name of a license, in upper or lower
case, as separate words, then `ohcount_sourcefile_get_license_list` of a new source file returns
a license; but for the entries of `unnamed`, Apache and Eiffel. -/
theorem C101_named_in_comment (mc : Host) (vt : Bool) (hmc : mc.engine = pcre vt) (before : Byte) (disk : Disk)
    (path : Bytes) (lang : String) (xs : List (Nat × Nat × Kind)) (h : Known disk path lang xs) (text : Bytes)
    (hd : disk path = some text) (h0 : (0 : Byte) ∉ text) (j : Nat) (e : Entry) (he : entries[j]? = some e)
    (hx : e.name ∉ unnamed) (h1 : e.name ≠ "apache") (h2 : e.name ≠ "eiffel") (s t : Nat)
    (hl : (s, t, Kind.lcomment) ∈ xs) (a w b : Bytes) (hline : (text.take t).drop s = a ++ (w ++ b))
    (hw : w.map Pcre.lower = (niceName e).map Pcre.lower) (ha : endsWord a = false) (hb : startsWord b = false) :
    ∃ world out, step (library mc) ⟨SourceFile.new before path, disk⟩ .getLicenses = some (world, .licenses out) ∧
      out ≠ [] ∧ ∀ name ∈ out, ∃ e' ∈ entries, e'.name = name := by
  obtain ⟨text', k, rs, _, _, hd', rfl, hk, _, _, _⟩ := known_doParse mc before disk path lang xs h
  rw [hd] at hd'; cases hd'
  obtain ⟨f1, f2⟩ := kinded_facts text k
  have hmem := List.mem_of_getElem? he
  have hwl := first_lower hw (nice_first e hmem)
  have hw32 : ∀ x ∈ w, (32 : Byte) ≤ x := by
    intro x hx
    have : Pcre.lower x ∈ (niceName e).map Pcre.lower := by rw [← hw]; exact List.mem_map.mpr ⟨x, hx, rfl⟩
    obtain ⟨y, hy, hxy⟩ := List.mem_map.mp this
    have h3 := nice_printable e hmem y hy
    rw [hxy] at h3
    have key : ∀ x : Byte, (32 : Byte) ≤ Pcre.lower x → (32 : Byte) ≤ x := byte_forall (by decide +kernel)
    exact key x h3
  have hwne : w ≠ [] := by rintro rfl; cases hwl
  obtain ⟨X, Y, hXY, hX, hY⟩ := name_collected text lang _ rs hk f1 f2 s t hl a w b hline hwl hw32 ha hb
  rw [collected_eq text lang .lcomment (by decide) hk] at hXY
  obtain ⟨world, pls, out, hstep, hout, _, hne, hcom⟩ := known_licenses mc before disk path lang _ h text hd h0
  have hne := hne (List.ne_nil_of_mem hl)
  have hcom := (hcom hne).trans hXY
  obtain ⟨a', b', hp', ha', hb'⟩ := in_piece w hwne (fun x hx => by
    have key : ∀ x : Byte, (32 : Byte) ≤ x → notNl x = true := byte_forall (by decide +kernel)
    exact key x (hw32 x hx)) X.length X Y (Nat.le_refl _) hX hY
  rw [← hcom] at hp'
  rw [hmc] at hout
  obtain ⟨hsome, _⟩ := C93_line_partial vt mc.junk mc.junkPs pls hne out hout j e he hx h1 h2 _ a' w b' hp' rfl hw ha' hb'
  refine ⟨world, out, hstep, hsome, fun name hn => ?_⟩
  · have := (C24_once_in_table_order (pcre vt) mc.junk mc.junkPs pls out hout).2.subset hn
    rw [← entries_ok.1, List.map_map] at this
    obtain ⟨e', he', rfl⟩ := List.mem_map.mp this
    exact ⟨e', he', rfl⟩

/-- C101: which licenses `ohcount_sourcefile_get_license_list` returns for a new source file: those
found in its lines of comment put one after the other, and not dropped for another license. -/
theorem C101_reported_iff (mc : Host) (before : Byte) (disk : Disk) (path : Bytes) (lang : String)
    (xs : List (Nat × Nat × Kind)) (h : Known disk path lang xs) (hxs : xs ≠ []) (text : Bytes)
    (hd : disk path = some text) (h0 : (0 : Byte) ∉ text) :
    ∃ world out, step (library mc) ⟨SourceFile.new before path, disk⟩ .getLicenses = some (world, .licenses out) ∧
      ∀ name, name ∈ out ↔
        KeptName mc.engine licenseMap (searchText (commentLines text xs).flatten) name ∧
        ∀ g s, (g, s) ∈ overridePairs → name = g →
          ¬ KeptName mc.engine licenseMap (searchText (commentLines text xs).flatten) s := by
  obtain ⟨world, pls, out, h1, h2, _, h4, h5⟩ := known_licenses mc before disk path lang xs h text hd h0
  refine ⟨world, out, h1, fun name => ?_⟩
  rw [← h5 (h4 hxs)]
  exact C26_reported_iff mc.engine mc.junk mc.junkPs licenseMap pls (h4 hxs) out h2 name

theorem find_nothing (vt : Bool) : ∀ j, (pcre vt).find j (searchText []) = none := by
  intro j
  by_cases hj : j < entries.length
  · have key : (List.range entries.length).all (fun j => [true, false].all fun vt =>
        ((pcre vt).find j (searchText [])).isNone) = true := by decide +kernel
    have := List.all_eq_true.mp (List.all_eq_true.mp key j (List.mem_range.mpr hj)) vt (by cases vt <;> simp)
    simpa using this
  · have : entries[j]? = none := List.getElem?_eq_none (by omega)
    simp [pcre, this]

/-- C101: a file without lines of comment has no licenses, whatever its code says. -/
theorem C101_no_comments (mc : Host) (vt : Bool) (hmc : mc.engine = pcre vt) (before : Byte) (disk : Disk) (path : Bytes)
    (lang : String) (xs : List (Nat × Nat × Kind)) (h : Known disk path lang xs) (text : Bytes)
    (hd : disk path = some text) (h0 : (0 : Byte) ∉ text) (hc : ∀ x ∈ xs, x.2.2 ≠ .lcomment) :
    ∃ world, step (library mc) ⟨SourceFile.new before path, disk⟩ .getLicenses = some (world, .licenses []) := by
  obtain ⟨world, pls, out, h1, h2, _, h4, h5⟩ := known_licenses mc before disk path lang xs h text hd h0
  refine ⟨world, ?_⟩
  have hcl : commentLines text xs = [] := by
    unfold commentLines
    rw [List.map_eq_nil_iff, List.filter_eq_nil_iff]
    intro x hx
    simpa using hc x hx
  rw [h1]
  by_cases hn : pls = []
  · subst hn; cases h2; rfl
  · have hout : out = [] := by
      rw [List.eq_nil_iff_forall_not_mem]
      intro name hname
      have hname := (C26_reported_iff _ _ _ _ pls hn out h2 name).mp hname
      obtain ⟨⟨i, lic, _, _, m, ⟨_, _, hm, _⟩, _⟩, _⟩ := hname
      rw [h5 hn, hcl, hmc] at hm
      rw [show ([] : List Bytes).flatten = [] from rfl, find_nothing] at hm
      cases hm
    rw [hout]

/-- C101: two files with the same lines of comment have the same licenses, also if they are in
different languages; the code does not count. -/
theorem C101_only_comments (mc : Host) (vt : Bool) (hmc : mc.engine = pcre vt) (before : Byte) (disk : Disk)
    (path₁ path₂ : Bytes) (lang₁ lang₂ : String) (xs₁ xs₂ : List (Nat × Nat × Kind))
    (k₁ : Known disk path₁ lang₁ xs₁) (k₂ : Known disk path₂ lang₂ xs₂) (text₁ text₂ : Bytes)
    (d₁ : disk path₁ = some text₁) (d₂ : disk path₂ = some text₂) (z₁ : (0 : Byte) ∉ text₁) (z₂ : (0 : Byte) ∉ text₂)
    (h : commentLines text₁ xs₁ = commentLines text₂ xs₂) :
    ∃ w₁ w₂ out, step (library mc) ⟨SourceFile.new before path₁, disk⟩ .getLicenses = some (w₁, .licenses out) ∧
      step (library mc) ⟨SourceFile.new before path₂, disk⟩ .getLicenses = some (w₂, .licenses out) := by
  obtain ⟨v₁, p₁, o₁, a1, a2, _, a4, a5⟩ := known_licenses mc before disk path₁ lang₁ xs₁ k₁ text₁ d₁ z₁
  obtain ⟨v₂, p₂, o₂, b1, b2, _, b4, b5⟩ := known_licenses mc before disk path₂ lang₂ xs₂ k₂ text₂ d₂ z₂
  have plain : ∀ (xs : List (Nat × Nat × Kind)) text, commentLines text xs = [] → ∀ x ∈ xs, x.2.2 ≠ .lcomment := by
    intro xs text hn x hx
    unfold commentLines at hn
    rw [List.map_eq_nil_iff, List.filter_eq_nil_iff] at hn
    simpa using hn x hx
  by_cases hn : commentLines text₁ xs₁ = []
  · obtain ⟨w₁, e₁⟩ := C101_no_comments mc vt hmc before disk path₁ lang₁ xs₁ k₁ text₁ d₁ z₁ (plain _ _ hn)
    obtain ⟨w₂, e₂⟩ := C101_no_comments mc vt hmc before disk path₂ lang₂ xs₂ k₂ text₂ d₂ z₂ (plain _ _ (h ▸ hn))
    exact ⟨w₁, w₂, [], e₁, e₂⟩
  · have n₁ : p₁ ≠ [] := a4 (by rintro rfl; exact hn rfl)
    have n₂ : p₂ ≠ [] := b4 (by rintro rfl; exact hn (h.trans rfl))
    refine ⟨v₁, v₂, o₁, a1, ?_⟩
    rw [b1]
    have : o₁ = o₂ := by
      obtain ⟨ps, e, hl, hv⟩ := languageLoop_ok mc.engine mc.junk licenseMap p₁
        (List.replicate licenseMap.length mc.junkPs) (List.length_replicate ..)
      obtain ⟨ps', e', hl', hv'⟩ := languageLoop_ok mc.engine mc.junk licenseMap p₂
        (List.replicate licenseMap.length mc.junkPs) (List.length_replicate ..)
      have hps : ps = ps' := by
        apply List.ext_getElem?
        intro i
        by_cases hi : i < licenseMap.length
        · rw [hv n₁ i hi, hv' n₂ i hi, a5 n₁, b5 n₂, h]
        · rw [List.getElem?_eq_none (by omega), List.getElem?_eq_none (by omega)]
      rw [detect_eq _ _ _ _ _ n₁, e] at a2
      rw [detect_eq _ _ _ _ _ n₂, e'] at b2
      cases a2; cases b2
      rw [hps]
    rw [this]

/-! ### A file -/

/-- A Java file with the name of a license in a comment, and another one in the code. -/
def licensed : Bytes := textOf chars!"class A {\n  // See the adaptive public LICENSE.\n  String s = \"artistic license\";\n}\n"

def licensedDisk : Disk := fun p => if p = bytes "d/A.java" then some licensed else none

theorem licensed_known : Known licensedDisk (bytes "d/A.java") "java" [(0, 10, .lcode), (10, 48, .lcomment), (48, 81, .lcode), (81, 83, .lcode)] := by
  have := Known.lexis (disk := licensedDisk)
    (path := bytes "d/A.java") (bytes "d/A") (bytes "java") Gram.parse_java LexisTable.java_line licensed
    (by decide +kernel) (by decide +kernel) (by simp [Cert.classified]) (by decide +kernel) (by decide +kernel) (by decide +kernel) (by decide +kernel)
  rw [show LexisTable.java_line.lines licensed = [(0, 10, .lcode), (10, 48, .lcomment), (48, 81, .lcode), (81, 83, .lcode)] by
    decide +kernel] at this
  exact this

/-- The conditions of C101 are met by it. -/
example (mc : Host) (hmc : mc.engine = pcre true) :
    ∃ world out, step (library mc) ⟨SourceFile.new 0 (bytes "d/A.java"), licensedDisk⟩ .getLicenses = some (world, .licenses out) ∧
      out ≠ [] ∧ ∀ name ∈ out, ∃ e' ∈ entries, e'.name = name :=
  C101_named_in_comment mc true hmc 0 licensedDisk _ _ _ licensed_known licensed (by decide +kernel) (by decide +kernel) 1 _ rfl
    (by decide +kernel) (by decide +kernel) (by decide +kernel) 10 48 (by simp)
    (textOf chars!"  // See the ") (textOf chars!"adaptive public LICENSE") (textOf chars!".\n")
    (by decide +kernel) (by decide +kernel) (by decide +kernel) (by decide +kernel)

/-- And its licenses are those of its comment. -/
example : commentLines licensed [(0, 10, .lcode), (10, 48, .lcomment), (48, 81, .lcode), (81, 83, .lcode)] = [textOf chars!"// See the adaptive public LICENSE.\n"] := by
  decide +kernel

end Ohcount.Licenses
