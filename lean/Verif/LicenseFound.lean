import Verif.LicenseNames

/-!
The licenses of the table are found by their own names; the entries with more involved
expressions (Apache, Eiffel, GPL 3); names that are not recognised.
-/

namespace Ohcount.Licenses

open Ohcount Ohcount.Pcre Ohcount.Diff

/-- Something that is true of all entries of a given name is true of the entry at hand. -/
theorem entry_of_name {f : Entry → Bool} {name : String}
    (h : entries.all (fun e => e.name != name || f e) = true) {j : Nat} {e : Entry}
    (he : entries[j]? = some e) (hn : e.name = name) : f e = true := by
  have := List.all_eq_true.mp h e (List.mem_of_getElem? he)
  simpa [hn] using this

/-- The expression of an entry as its alternatives. -/
def rows (e : Entry) : Option (List (List Rx)) := e.re.rx.map flat

theorem find_rows {vt : Bool} {j : Nat} {e : Entry} {l : List (List Rx)} (he : entries[j]? = some e)
    (hr : rows e = some l) (t : Bytes) :
    (pcre vt).find j t ≠ none ↔ ∃ i k, i ≤ t.length ∧ ∃ s ∈ l, InRow vt t s i k := by
  simp only [pcre, he, Option.bind_some]
  unfold rows at hr
  cases h : e.re.rx with
  | none => rw [h] at hr; cases hr
  | some r =>
    rw [h] at hr; cases hr
    simp only [find_iff, flat_iff]

/-! ### The same stretch in different surroundings -/

/-- The classes of the expression do not tell upper from lower case. -/
def folds : Rx → Bool
  | .eps => true
  | .set c => c.all foldsAtom
  | .rep c _ _ => c.all foldsAtom
  | .cat a b => folds a && folds b
  | .alt a b => folds a && folds b
  | .opt a => folds a
  | .bound => true
  | .lineStart => false
  | .notAhead a => folds a
where
  /-- no letter is meant in one case only -/
  foldsAtom : Atom → Bool
    | .byte _ => false
    | .word => false
    | _ => true

/-- The expressions after `(?!`. -/
def aheads : Rx → List Rx
  | .cat a b => aheads a ++ aheads b
  | .alt a b => aheads a ++ aheads b
  | .opt a => aheads a
  | .notAhead a => [a]
  | _ => []

theorem atom_lower (vt : Bool) (a : Atom) (ha : folds.foldsAtom a = true) (x y : Byte)
    (h : lower x = lower y) : Atom.mem vt x a = Atom.mem vt y a := by
  have key : ∀ x : Byte, isSpace vt (lower x) = isSpace vt x ∧ (lower x != 10) = (x != 10) := by
    cases vt <;> exact byte_forall (by decide +kernel)
  cases a with
  | byte b => cases ha
  | word => cases ha
  | fold b => simp only [Atom.mem, h]
  | space => simp only [Atom.mem]; rw [← (key x).1, ← (key y).1, h]
  | dot all => simp only [Atom.mem]; rw [← (key x).2, ← (key y).2, h]

theorem class_lower (vt : Bool) (c : List Atom) (hc : c.all folds.foldsAtom = true) (x y : Byte)
    (h : lower x = lower y) : inClass vt c x = inClass vt c y := by
  unfold inClass
  induction c with
  | nil => rfl
  | cons a c ih =>
    simp only [List.all_cons, Bool.and_eq_true] at hc
    simp only [List.any_cons, ih hc.2, atom_lower vt a hc.1 x y h]

theorem wordBefore_succ (t : Bytes) (i : Nat) : wordBefore t (i + 1) = wordAt t i := rfl

/-- The bytes of the two stretches. -/
theorem same_byte {w w' : Bytes} (hw : w'.map lower = w.map lower) (p s p' s' : Bytes) (k : Nat)
    (hk : k < w.length) : ∃ x y, (p ++ (w ++ s))[p.length + k]? = some x ∧
      (p' ++ (w' ++ s'))[p'.length + k]? = some y ∧ lower y = lower x := by
  have hl : w'.length = w.length := by simpa using congrArg List.length hw
  have hk' : k < w'.length := by omega
  refine ⟨w[k], w'[k], ?_, ?_, ?_⟩
  · rw [List.getElem?_append_right (by omega), List.getElem?_append_left (by omega),
      Nat.add_sub_cancel_left, List.getElem?_eq_getElem hk]
  · rw [List.getElem?_append_right (by omega), List.getElem?_append_left (by omega),
      Nat.add_sub_cancel_left, List.getElem?_eq_getElem hk']
  · have := congrArg (·[k]?) hw
    simpa [List.getElem?_map, List.getElem?_eq_getElem hk, List.getElem?_eq_getElem hk'] using this

theorem same_word {w w' : Bytes} (hw : w'.map lower = w.map lower) {p s p' s' : Bytes}
    (hs : startsWord s = startsWord s') (k : Nat) (hk : k ≤ w.length) :
    wordAt (p ++ (w ++ s)) (p.length + k) = wordAt (p' ++ (w' ++ s')) (p'.length + k) := by
  have hl : w'.length = w.length := by simpa using congrArg List.length hw
  by_cases h : k < w.length
  · obtain ⟨x, y, h1, h2, h3⟩ := same_byte hw p s p' s' k h
    unfold wordAt
    rw [h1, h2]
    show isWord x = isWord y
    rw [← isWord_lower x, ← isWord_lower y, h3]
  · have e : k = w.length := by omega
    have a1 := wordAt_append (p ++ w) s
    have a2 := wordAt_append (p' ++ w') s'
    rw [List.length_append, List.append_assoc] at a1 a2
    rw [e, a1, ← hl, a2, hs]

/-- A match inside the stretch `w` is a match inside the stretch `w'`, which is the same but
for upper and lower case. -/
theorem matches_moved {vt : Bool} {w w' : Bytes} (hw : w'.map lower = w.map lower) {p s p' s' : Bytes}
    (hp : endsWord p = endsWord p') (hs : startsWord s = startsWord s') (r : Rx)
    (hf : folds r = true)
    (ha : ∀ q ∈ aheads r, ∀ k ≤ w.length, (∃ m, Matches vt (p' ++ (w' ++ s')) q (p'.length + k) m) →
      ∃ m, Matches vt (p ++ (w ++ s)) q (p.length + k) m) :
    ∀ i j, j ≤ w.length → Matches vt (p ++ (w ++ s)) r (p.length + i) (p.length + j) →
      Matches vt (p' ++ (w' ++ s')) r (p'.length + i) (p'.length + j) := by
  induction r with
  | eps => intro i j _ h; have : p.length + i = p.length + j := h; show _ = _; omega
  | set c =>
    rintro i j hj ⟨h1, x, hx, hc⟩
    obtain ⟨x', y, h2, h3, h4⟩ := same_byte hw p s p' s' i (by omega)
    rw [hx] at h2; cases h2
    exact ⟨by omega, y, h3, by rw [class_lower vt c hf y x h4]; exact hc⟩
  | rep c lo hi =>
    rintro i j hj ⟨n, h1, h2, h3, h4⟩
    refine ⟨n, by omega, h2, h3, fun k hk1 hk2 => ?_⟩
    obtain ⟨x, hx, hc⟩ := h4 (p.length + (k - p'.length)) (by omega) (by omega)
    obtain ⟨x', y, h5, h6, h7⟩ := same_byte hw p s p' s' (k - p'.length) (by omega)
    rw [hx] at h5; cases h5
    rw [show p'.length + (k - p'.length) = k by omega] at h6
    exact ⟨y, h6, by rw [class_lower vt c hf y x h7]; exact hc⟩
  | cat a b iha ihb =>
    rintro i j hj ⟨m, h1, h2⟩
    simp only [folds, Bool.and_eq_true] at hf
    have l1 := h1.le
    have l2 := h2.le
    rw [show m = p.length + (m - p.length) by omega] at h1 h2
    exact ⟨p'.length + (m - p.length),
      iha hf.1 (fun q hq => ha q (List.mem_append_left _ hq)) _ _ (by omega) h1,
      ihb hf.2 (fun q hq => ha q (List.mem_append_right _ hq)) _ _ hj h2⟩
  | alt a b iha ihb =>
    intro i j hj h
    simp only [folds, Bool.and_eq_true] at hf
    rcases h with h | h
    · exact Or.inl (iha hf.1 (fun q hq => ha q (List.mem_append_left _ hq)) _ _ hj h)
    · exact Or.inr (ihb hf.2 (fun q hq => ha q (List.mem_append_right _ hq)) _ _ hj h)
  | opt a iha =>
    intro i j hj h
    rcases h with h | h
    · exact Or.inl (iha hf ha _ _ hj h)
    · exact Or.inr (by omega)
  | lineStart => cases hf
  | bound =>
    rintro i j hj ⟨h1, h2⟩
    refine ⟨by omega, ?_⟩
    rw [← same_word hw (p := p) hs i (by omega)]
    cases i with
    | zero =>
      rw [Nat.add_zero, wordBefore_append] at h2
      rw [Nat.add_zero, wordBefore_append, ← hp]; exact h2
    | succ i =>
      rw [← Nat.add_assoc, wordBefore_succ] at h2 ⊢
      rw [← same_word hw (p := p) hs i (by omega)]; exact h2
  | notAhead a _ =>
    rintro i j hj ⟨h1, h2⟩
    refine ⟨by omega, fun h => h2 (ha a List.mem_cons_self i (by omega) h)⟩

/-! ### Nice names -/

/-- The entries that are not found by their nice names. -/
def unnamed : List String :=
  ["gpl3_or_later", "gpl3", "sugarcrm_1_1_3", "apache_ish", "bsd_ish", "bsd_2clause_ish"]

/-- The text goes on with a 2, after nothing but white space, commas and letters V. -/
def TwoFollows (vt : Bool) (s : Bytes) : Prop :=
  ∃ a b, s = a ++ 50 :: b ∧ ∀ x ∈ a, isSpace vt x = true ∨ x = 44 ∨ x = 86 ∨ x = 118

/-- The nice name of an entry. -/
def niceName (e : Entry) : Bytes := e.nice.map byteOf

/-- C93, the full statement: a license is found in every text that contains its nice name,
in upper or lower case, as separate words. -/
def C93_full : Prop :=
  ∀ (vt : Bool) (j : Nat) (e : Entry), entries[j]? = some e → ∀ (before w after : Bytes),
    w.map lower = (niceName e).map lower → endsWord before = false → startsWord after = false →
      (pcre vt).find j (before ++ (w ++ after)) ≠ none

/-- An expression `[...]*2` with a class of white space, commas and letters V. -/
def isTwo : Rx → Bool
  | .cat (.rep c 0 none) (.set [.fold 50]) =>
    c.all fun a => a == .space || a == .fold 44 || a == .fold 118
  | _ => false

/-- What is checked of an entry and its nice name. -/
def niceOk (vt : Bool) (e : Entry) : Bool :=
  unnamed.contains e.name || match e.re.rx with
    | none => false
    | some r => folds r && (aheads r).all isTwo &&
        ((e.name == "apache" || e.name == "eiffel") || (aheads r).isEmpty) &&
        match Pcre.find vt r ([32] ++ (niceName e ++ [32])) with
        | none => false
        | some (a, b) => decide (1 ≤ a) && decide (b ≤ 1 + (niceName e).length)

theorem nice_ok (vt : Bool) : entries.all (niceOk vt) = true := by
  cases vt <;> decide +kernel

theorem lower_two (x : Byte) : lower x = 50 → x = 50 := by
  revert x; exact byte_forall (by decide +kernel)

theorem lower_comma (x : Byte) : lower x = 44 → x = 44 := by
  revert x; exact byte_forall (by decide +kernel)

theorem lower_v (x : Byte) : lower x = 118 → x = 86 ∨ x = 118 := by
  revert x; exact byte_forall (by decide +kernel)

/-- A `[...]*2` that matches from within the stretch, but not in what follows it, matches
in the other surroundings too. -/
theorem two_moved {vt : Bool} {w w' : Bytes} (hw : w'.map lower = w.map lower) {p s p' s' : Bytes}
    (q : Rx) (hq : isTwo q = true) (h2 : ¬ TwoFollows vt s') (k : Nat)
    (h : ∃ m, Matches vt (p' ++ (w' ++ s')) q (p'.length + k) m) (hk : k ≤ w.length) :
    ∃ m, Matches vt (p ++ (w ++ s)) q (p.length + k) m := by
  have hl : w'.length = w.length := by simpa using congrArg List.length hw
  unfold isTwo at hq
  split at hq
  · rename_i c
    obtain ⟨j, m, ⟨n, h3, h4, _, h5⟩, h6, x, hx, hx2⟩ := h
    have hx2 : x = 50 := lower_two x (by simpa [inClass, Atom.mem] using hx2)
    subst hx2
    subst h3
    have hfold : c.all folds.foldsAtom = true := by
      rw [List.all_eq_true] at hq ⊢
      intro a ha
      have := hq a ha
      simp only [Bool.or_eq_true, beq_iff_eq] at this
      rcases this with (h | h) | h <;> subst h <;> rfl
    by_cases hn : k + n < w.length
    · refine ⟨p.length + (k + n) + 1, p.length + (k + n), ⟨n, by omega, h4, fun h e => by (cases e),
        fun i hi1 hi2 => ?_⟩, rfl, ?_⟩
      · obtain ⟨x, y, e1, e2, e3⟩ := same_byte hw p s p' s' (i - p.length) (by omega)
        obtain ⟨z, e4, e5⟩ := h5 (p'.length + (i - p.length)) (by omega) (by omega)
        rw [e2] at e4; cases e4
        rw [show p.length + (i - p.length) = i by omega] at e1
        exact ⟨x, e1, by rw [class_lower vt c hfold x y e3.symm]; exact e5⟩
      · obtain ⟨x, y, e1, e2, e3⟩ := same_byte hw p s p' s' (k + n) hn
        rw [← Nat.add_assoc, hx] at e2; cases e2
        exact ⟨x, e1, by simp [inClass, Atom.mem, ← e3]; decide⟩
    · refine absurd ?_ h2
      have e1 : (p'.length + k + n) - p'.length - w'.length = k + n - w.length := by omega
      rw [List.getElem?_append_right (by omega), List.getElem?_append_right (by omega), e1] at hx
      obtain ⟨hlt, hx⟩ := List.getElem?_eq_some_iff.mp hx
      refine ⟨s'.take (k + n - w.length), s'.drop (k + n - w.length + 1), ?_, fun x hx3 => ?_⟩
      · rw [← hx, ← List.drop_eq_getElem_cons hlt, List.take_append_drop]
      · obtain ⟨i, hi, e⟩ := List.mem_iff_getElem.mp hx3
        rw [List.length_take] at hi
        obtain ⟨y, hy, hc⟩ := h5 (p'.length + (w'.length + i)) (by omega) (by omega)
        rw [List.getElem?_append_right (by omega), List.getElem?_append_right (by omega),
          show p'.length + (w'.length + i) - p'.length - w'.length = i by omega,
          List.getElem?_eq_getElem (by omega)] at hy
        injection hy with hy
        rw [List.getElem_take] at e
        rw [← hy, e] at hc
        unfold inClass at hc
        obtain ⟨a, ha, hm⟩ := List.any_eq_true.mp hc
        have := List.all_eq_true.mp hq a ha
        simp only [Bool.or_eq_true, beq_iff_eq] at this
        rcases this with (h | h) | h <;> subst h <;> simp only [Atom.mem, beq_iff_eq] at hm
        · exact Or.inl hm
        · exact Or.inr (Or.inl (lower_comma x hm))
        · exact Or.inr (Or.inr (lower_v x hm))
  · cases hq

/-- C93: a license is found in every text that contains its nice name, in upper or lower
case, as separate words; but for the six entries of `unnamed`. The names of the Apache and
Eiffel licenses must not be followed by a 2. -/
theorem C93_nice_name_partial (vt : Bool) (j : Nat) (e : Entry) (he : entries[j]? = some e)
    (hx : e.name ∉ unnamed) (before w after : Bytes) (hw : w.map lower = (niceName e).map lower)
    (hb : endsWord before = false) (ha : startsWord after = false)
    (h2 : e.name = "apache" ∨ e.name = "eiffel" → ¬ TwoFollows vt after) :
    (pcre vt).find j (before ++ (w ++ after)) ≠ none := by
  have h := List.all_eq_true.mp (nice_ok vt) e (List.mem_of_getElem? he)
  unfold niceOk at h
  rw [Bool.or_eq_true, List.contains_iff_mem] at h
  replace h := h.resolve_left hx
  simp only [pcre, he, Option.bind_some]
  cases hr : e.re.rx with
  | none => rw [hr] at h; cases h
  | some r =>
    rw [hr] at h
    simp only [Bool.and_eq_true] at h
    obtain ⟨⟨⟨hf, hall⟩, hwho⟩, hfind⟩ := h
    split at hfind
    · cases hfind
    · rename_i a b hab
      simp only [Bool.and_eq_true, decide_eq_true_eq] at hfind
      obtain ⟨hle, _, hm, _⟩ := find_some vt r _ a b hab
      simp only [find_iff]
      have hl : w.length = (niceName e).length := by simpa using congrArg List.length hw
      refine ⟨before.length + (a - 1), before.length + (b - 1), ?_, ?_⟩
      · simp; omega
      · refine matches_moved hw (p := [32]) (s := [32]) (p' := before) (s' := after)
          (by rw [hb]; decide) (by rw [ha]; decide) r hf ?_ (a - 1) (b - 1) (by omega) ?_
        · intro q hq k hk hm
          have hq2 := List.all_eq_true.mp hall q hq
          refine two_moved hw q hq2 (h2 ?_) k hm hk
          rw [Bool.or_eq_true, Bool.or_eq_true] at hwho
          rcases hwho with hwho | hwho
          · simpa using hwho
          · rw [List.isEmpty_iff] at hwho
            rw [hwho] at hq; cases hq
        · rw [show ([32] : Bytes).length + (a - 1) = a by simp; omega,
            show ([32] : Bytes).length + (b - 1) = b by simp; omega]
          exact hm

/-- The six entries are not found by their nice names. -/
theorem C93_unnamed (vt : Bool) : ∀ j, j < 72 → ∀ e, entries[j]? = some e → e.name ∈ unnamed →
    (pcre vt).find j ([32] ++ (niceName e ++ [32])) = none := by
  have h : ∀ vt : Bool, (List.range 72).all (fun j => match entries[j]? with
      | none => true
      | some e => !unnamed.contains e.name ||
          ((pcre vt).find j ([32] ++ (niceName e ++ [32]))).isNone) = true := by
    intro vt; cases vt <;> decide +kernel
  intro j hj e he hu
  have := List.all_eq_true.mp (h vt) j (List.mem_range.mpr hj)
  rw [he] at this
  simpa [hu] using this

theorem C93_negation : ¬ C93_full := by
  intro h
  have e := C93_unnamed true 57 (by decide) _ rfl (by decide)
  exact h true 57 _ rfl [32] _ [32] rfl (by decide) (by decide) e

end Ohcount.Licenses
