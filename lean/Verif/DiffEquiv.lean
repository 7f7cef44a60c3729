import Verif.DiffSort
/-
`equiv` and `unsort` of `src/diff.c` build the equivalence classes: lemmas for the diff
properties.
-/

namespace Ohcount.Diff

/-- Sorted by value. -/
def VSorted (ls : List Line) : Prop := ls.Pairwise fun a b => a.value ≤ b.value

theorem VSorted.of_lt {ls : List Line} (h : ls.Pairwise Lt) : VSorted ls :=
  h.imp fun {a b} hab => by unfold Lt at hab; omega

/-- 1-based position of the first line with value `v`, or 0. -/
def firstPos (bs : List Line) (v : Int) : Int :=
  match bs.findIdx? (fun b => b.value == v) with
  | some j => (j + 1 : Nat)
  | none => 0

theorem firstPos_of_absent (bs : List Line) (v : Int) (h : ∀ b ∈ bs, b.value ≠ v) :
    firstPos bs v = 0 := by
  unfold firstPos
  have : bs.findIdx? (fun b => b.value == v) = none := by
    rw [List.findIdx?_eq_none_iff]
    intro x hx; simpa using h x hx
  rw [this]

theorem firstPos_of_first (bs : List Line) (v : Int) (j : Nat) (b : Line) (hj : bs[j]? = some b)
    (hb : b.value = v) (hlt : ∀ j' b', j' < j → bs[j']? = some b' → b'.value ≠ v) :
    firstPos bs v = (j + 1 : Nat) := by
  unfold firstPos
  have : bs.findIdx? (fun b => b.value == v) = some j := by
    obtain ⟨h1, h2⟩ := List.getElem?_eq_some_iff.1 hj
    rw [List.findIdx?_eq_some_iff_getElem]
    refine ⟨h1, by simp [h2, hb], ?_⟩
    intro k hk
    have := hlt k bs[k] hk (List.getElem?_eq_getElem (by omega))
    simpa using this
  rw [this]

theorem vsorted_le {ls : List Line} (h : VSorted ls) {i j : Nat} {a b : Line} (hij : i < j)
    (hi : ls[i]? = some a) (hj : ls[j]? = some b) : a.value ≤ b.value := by
  obtain ⟨h1, rfl⟩ := List.getElem?_eq_some_iff.1 hi
  obtain ⟨h2, rfl⟩ := List.getElem?_eq_some_iff.1 hj
  exact (List.pairwise_iff_getElem.1 h) i j h1 h2 hij

/-- The first two loops of `equiv` replace every value by the position of its class. -/
theorem equiv1_spec (bs : List Line) (hbs : VSorted bs) (as0 : List Line) (has : VSorted as0)
    (fuel : Nat) : ∀ (i j : Nat), i ≤ as0.length → j ≤ bs.length →
      (as0.length - i) + (bs.length - j) < fuel →
      (∀ i' a, i ≤ i' → as0[i']? = some a → ∀ j' b, j' < j → bs[j']? = some b → b.value < a.value) →
      equiv1 bs fuel i j ((as0.take i).map (fun l => ⟨l.serial, firstPos bs l.value⟩) ++ as0.drop i)
        = some (as0.map fun l => ⟨l.serial, firstPos bs l.value⟩) := by
  induction fuel with
  | zero => intros; omega
  | succ fuel ih =>
    intro i j hi hj hf hinv
    have hlen : ((as0.take i).map (fun l => (⟨l.serial, firstPos bs l.value⟩ : Line)) ++ as0.drop i).length
        = as0.length := by simp; omega
    rw [equiv1, hlen]
    by_cases hilt : i < as0.length
    · have hget : ((as0.take i).map (fun l => (⟨l.serial, firstPos bs l.value⟩ : Line)) ++ as0.drop i)[i]?
          = some as0[i] := by
        rw [List.getElem?_append_right (by simp; omega)]
        simp only [List.length_map, List.length_take, List.getElem?_drop]
        rw [show i + (i - min i as0.length) = i by omega]
        exact List.getElem?_eq_getElem hilt
      have hset : ∀ v, v = firstPos bs as0[i].value →
          ((as0.take i).map (fun l => (⟨l.serial, firstPos bs l.value⟩ : Line)) ++ as0.drop i).set i
            ⟨as0[i].serial, v⟩ =
          (as0.take (i + 1)).map (fun l => (⟨l.serial, firstPos bs l.value⟩ : Line)) ++ as0.drop (i + 1) := by
        intro v hv
        have hl : ((as0.take i).map (fun l => (⟨l.serial, firstPos bs l.value⟩ : Line))).length = i := by
          simp; omega
        rw [List.set_append_right _ _ (by omega), hl, Nat.sub_self, List.drop_eq_getElem_cons hilt,
          List.set_cons_zero, ← List.take_append_getElem hilt, List.map_append, hv]
        simp
      have hget0 : as0[i]? = some as0[i] := List.getElem?_eq_getElem hilt
      simp only [hilt, if_true, hget]
      by_cases hjlt : j < bs.length
      · have hgb : bs[j]? = some bs[j] := List.getElem?_eq_getElem hjlt
        simp only [hjlt, if_true, hgb]
        by_cases h1 : as0[i].value < bs[j].value
        · simp only [h1, if_true]
          rw [hset 0 ?_]
          · refine ih (i + 1) j (by omega) hj (by omega) ?_
            intro i' a h; exact hinv i' a (by omega)
          · symm; apply firstPos_of_absent
            intro b hb
            obtain ⟨j', hj'⟩ := List.mem_iff_getElem?.1 hb
            rcases Nat.lt_trichotomy j' j with h | h | h
            · have := hinv i as0[i] (Nat.le_refl _) hget0 j' b h hj'; omega
            · subst h; rw [hgb] at hj'; cases hj'; omega
            · have := vsorted_le hbs h hgb hj'; omega
        · by_cases h2 : as0[i].value = bs[j].value
          · rw [if_neg h1, if_pos h2, hset _ ?_]
            · refine ih (i + 1) j (by omega) hj (by omega) ?_
              intro i' a h; exact hinv i' a (by omega)
            · symm; apply firstPos_of_first bs _ j bs[j] hgb h2.symm
              intro j' b' hj' hb'
              have := hinv i as0[i] (Nat.le_refl _) hget0 j' b' hj' hb'; omega
          · simp only [h1, if_false, h2]
            refine ih i (j + 1) (by omega) (by omega) (by omega) ?_
            intro i' a hi' ha j' b hj' hb
            rcases Nat.lt_or_ge j' j with h | h
            · exact hinv i' a hi' ha j' b h hb
            · have : j' = j := by omega
              subst this
              rw [hgb] at hb; cases hb
              rcases Nat.eq_or_lt_of_le hi' with h | h
              · subst h; rw [hget0] at ha; cases ha; omega
              · have := vsorted_le has h hget0 ha; omega
      · simp only [hjlt, if_false]
        rw [hset 0 ?_]
        · refine ih (i + 1) j (by omega) hj (by omega) ?_
          intro i' a h; exact hinv i' a (by omega)
        · symm; apply firstPos_of_absent
          intro b hb
          obtain ⟨j', hj'⟩ := List.mem_iff_getElem?.1 hb
          have hl := (List.getElem?_eq_some_iff.1 hj').1
          have := hinv i as0[i] (Nat.le_refl _) hget0 j' b (by omega) hj'; omega
    · have : i = as0.length := by omega
      subst this
      simp

/-- What `equiv` writes for the line at (0-based) position `p` of the sorted lines. -/
def memberAt (bs : List Line) (p : Nat) : Option Int :=
  (bs[p]?).map fun b =>
    if p = 0 then -(b.serial : Int)
    else if (bs[p - 1]?).map Line.value = some b.value then (b.serial : Int)
    else -(b.serial : Int)

theorem put_ok {α : Type} (l : List α) (i : Nat) (v : α) (h : i < l.length) :
    put l i v = some (l.set i v) := by simp [put, h]

/-- `c[1..j]` has been written. -/
def Filled (bs : List Line) (j : Nat) (c : List Int) : Prop :=
  ∀ p, p < j → c[p + 1]? = memberAt bs p

theorem filled_set {bs : List Line} {j : Nat} {c : List Int} {v : Int} (hc : Filled bs j c)
    (hl : j + 1 < c.length) (hv : memberAt bs j = some v) : Filled bs (j + 1) (c.set (j + 1) v) := by
  intro p hp
  rcases Nat.lt_or_ge p j with h | h
  · rw [List.getElem?_set_ne (by omega)]; exact hc p h
  · have : p = j := by omega
    subst this
    rw [List.getElem?_set_self (by omega), hv]

theorem equivInner_spec (bs : List Line) (t : Line) (tail : List Line)
    (ht : ∀ b, bs.getLast? = some b → b.value ≠ t.value)
    (fuel : Nat) : ∀ (j : Nat) (c : List Int), 1 ≤ j → j ≤ bs.length → bs.length - j < fuel →
      bs.length + 2 ≤ c.length → Filled bs j c →
      ∃ j' c', equivInner (bs ++ t :: tail) fuel j c = some (j', c') ∧ j ≤ j' ∧ j' ≤ bs.length ∧
        c'.length = c.length ∧ Filled bs j' c' ∧
        (j' < bs.length → (bs[j' - 1]?).map Line.value ≠ (bs[j']?).map Line.value) := by
  induction fuel with
  | zero => intros; omega
  | succ fuel ih =>
    intro j c h1 hj hf hl hc
    have hcur : (bs ++ t :: tail)[j - 1]? = some bs[j - 1] := by
      rw [List.getElem?_append_left (by omega)]; exact List.getElem?_eq_getElem (by omega)
    have hcur' : bs[j - 1]? = some bs[j - 1] := List.getElem?_eq_getElem (by omega)
    by_cases hlt : j < bs.length
    · have hnx : (bs ++ t :: tail)[j]? = some bs[j] := by
        rw [List.getElem?_append_left hlt]; exact List.getElem?_eq_getElem hlt
      have hnx' : bs[j]? = some bs[j] := List.getElem?_eq_getElem hlt
      simp only [equivInner, hcur, hnx]
      by_cases he : bs[j].value = bs[j - 1].value
      · simp only [he, if_true]
        rw [put_ok _ _ _ (by omega), Option.bind_some]
        have hm : memberAt bs j = some (bs[j].serial : Int) := by
          have : j ≠ 0 := by omega
          simp [memberAt, hnx', hcur', he, this]
        obtain ⟨j', c', e, a1, a2, a3, a4, a5⟩ := ih (j + 1) (c.set (j + 1) bs[j].serial) (by omega)
          (by omega) (by omega) (by simpa using hl) (filled_set hc (by omega) hm)
        exact ⟨j', c', e, by omega, a2, by simpa using a3, a4, a5⟩
      · simp only [he, if_false]
        refine ⟨j, c, rfl, Nat.le_refl _, hj, rfl, hc, ?_⟩
        intro _; rw [hnx', hcur']
        simp only [Option.map_some, ne_eq, Option.some.injEq]
        exact fun h => he h.symm
    · have hje : j = bs.length := by omega
      subst hje
      have hnx : (bs ++ t :: tail)[bs.length]? = some t := by simp
      simp only [equivInner, hcur, hnx]
      have hne : ¬ t.value = bs[bs.length - 1].value := by
        intro h
        have : bs.getLast? = some bs[bs.length - 1] := by
          rw [List.getLast?_eq_getElem?]; exact hcur'
        exact ht _ this h.symm
      simp only [hne, if_false]
      exact ⟨bs.length, c, rfl, Nat.le_refl _, Nat.le_refl _, rfl, hc, fun h => by omega⟩

theorem equivOuter_spec (bs : List Line) (t : Line) (tail : List Line)
    (ht : ∀ b, bs.getLast? = some b → b.value ≠ t.value)
    (fuel : Nat) : ∀ (j : Nat) (c : List Int), j ≤ bs.length → bs.length - j < fuel →
      bs.length + 2 ≤ c.length → Filled bs j c →
      (0 < j → j < bs.length → (bs[j - 1]?).map Line.value ≠ (bs[j]?).map Line.value) →
      ∃ c', equivOuter (bs ++ t :: tail) bs.length fuel j c = some c' ∧ c'.length = c.length ∧
        Filled bs bs.length c' ∧ c'[bs.length + 1]? = some (-1) := by
  induction fuel with
  | zero => intros; omega
  | succ fuel ih =>
    intro j c hj hf hl hc hd
    rw [equivOuter]
    by_cases hlt : j + 1 ≤ bs.length
    · have hb : (bs ++ t :: tail)[j]? = some bs[j] := by
        rw [List.getElem?_append_left (by omega)]; exact List.getElem?_eq_getElem (by omega)
      have hb' : bs[j]? = some bs[j] := List.getElem?_eq_getElem (by omega)
      simp only [hlt, if_true, hb]
      rw [put_ok _ _ _ (by omega), Option.bind_some]
      have hm : memberAt bs j = some (-(bs[j].serial : Int)) := by
        by_cases h0 : j = 0
        · subst h0; simp only [memberAt, hb', Option.map_some, if_true]
        · have := hd (by omega) (by omega)
          rw [hb', Option.map_some] at this
          simp only [memberAt, hb', Option.map_some, h0, if_false, this]
      obtain ⟨j', c', e, a1, a2, a3, a4, a5⟩ := equivInner_spec bs t tail ht
        ((bs ++ t :: tail).length + 1) (j + 1) (c.set (j + 1) (-(bs[j].serial : Int)))
        (by omega) hlt (by simp; omega) (by simpa using hl) (filled_set hc (by omega) hm)
      rw [e, Option.bind_some]
      obtain ⟨c2, e2, b1, b2, b3⟩ := ih j' c' a2 (by omega) (by rw [a3]; simpa using hl) a4
        (fun _ h => a5 h)
      exact ⟨c2, e2, by rw [b1, a3]; simp, b2, b3⟩
    · have : j = bs.length := by omega
      subst this
      simp only [hlt, if_false]
      rw [put_ok _ _ _ (by omega)]
      refine ⟨_, rfl, by simp, ?_, ?_⟩
      · intro p hp
        rw [List.getElem?_set_ne (by omega)]; exact hc p hp
      · rw [List.getElem?_set_self (by omega)]

/-- `equiv` computes the classes when the largest value of `bs` is not 0. -/
theorem equiv_spec (as bs : List Line) (has : VSorted as) (hbs : VSorted bs)
    (h0 : ∀ b, bs.getLast? = some b → b.value ≠ 0) (t : Line) (tail : List Line) (c : List Int)
    (hc : bs.length + 2 ≤ c.length) :
    ∃ c', equiv as bs (t :: tail) c =
        some (as.map (fun l => ⟨l.serial, firstPos bs l.value⟩), c') ∧
      Filled bs bs.length c' ∧ c'[bs.length + 1]? = some (-1) := by
  have e1 := equiv1_spec bs hbs as has (as.length + bs.length + 1) 0 0 (by omega) (by omega)
    (by omega) (by intros; omega)
  simp only [List.take_zero, List.map_nil, List.nil_append, List.drop_zero] at e1
  obtain ⟨c', e2, _, a2, a3⟩ := equivOuter_spec bs ⟨t.serial, 0⟩ tail h0 (bs.length + 1) 0 c
    (by omega) (by omega) hc (by intro p hp; omega) (by intro h; omega)
  exact ⟨c', by simp [equiv, e1, e2], a2, a3⟩

/-! ### unsort -/

theorem unsort_spec (ls : List Line) : ∀ (a : List Int), (∀ l ∈ ls, l.serial < a.length) →
    (ls.map Line.serial).Nodup →
    ∃ a', unsort ls a = some a' ∧ a'.length = a.length ∧
      (∀ l ∈ ls, a'[l.serial]? = some l.value) ∧
      (∀ i, (∀ l ∈ ls, l.serial ≠ i) → a'[i]? = a[i]?) := by
  induction ls with
  | nil => intro a _ _; exact ⟨a, rfl, rfl, by simp, fun _ _ => rfl⟩
  | cons l ls ih =>
    intro a hb hnd
    rw [List.map_cons, List.nodup_cons] at hnd
    have hl := hb l (by simp)
    obtain ⟨a', e, h1, h2, h3⟩ := ih (a.set l.serial l.value)
      (by intro x hx; simpa using hb x (by simp [hx])) hnd.2
    refine ⟨a', by simp [unsort, put_ok _ _ _ hl, e], by simpa using h1, ?_, ?_⟩
    · intro x hx
      rcases List.mem_cons.1 hx with rfl | hx
      · rw [h3 _ (by
          intro y hy he
          exact hnd.1 (List.mem_map.2 ⟨y, hy, he⟩))]
        rw [List.getElem?_set_self hl]
      · exact h2 x hx
    · intro i hi
      rw [h3 i (fun x hx => hi x (by simp [hx]))]
      exact List.getElem?_set_ne (hi l (by simp))

/-- `unsort` after `equiv`: the class of every line, in the original order. -/
theorem unsort_classes' (v : List Int) (s : List Line) (hp : s.Perm (number 1 v)) (f : Int → Int)
    (a : List Int) (ha : a.length = v.length + 1) :
    ∃ cls, unsort (s.map fun l => ⟨l.serial, f l.value⟩) a = some cls ∧
      cls.drop 1 = v.map f ∧ cls.length = v.length + 1 := by
  have hmap : (s.map fun l => (⟨l.serial, f l.value⟩ : Line)).map Line.serial = s.map Line.serial := by
    simp [Function.comp_def]
  obtain ⟨a', e, h1, h2, _⟩ := unsort_spec (s.map fun l => ⟨l.serial, f l.value⟩)
    a (by
      intro l hl
      simp only [List.mem_map] at hl
      obtain ⟨x, hx, rfl⟩ := hl
      rw [hp.mem_iff, mem_number] at hx
      have := (List.getElem?_eq_some_iff.1 hx.2).1
      dsimp only; omega) (by
      rw [hmap, (hp.map Line.serial).nodup_iff]; exact number_nodup 1 v)
  refine ⟨a', e, ?_, by omega⟩
  apply List.ext_getElem?
  intro i
  rw [List.getElem?_drop, List.getElem?_map]
  by_cases hi : i < v.length
  · have hv : v[i]? = some v[i] := List.getElem?_eq_getElem hi
    have hm : (⟨1 + i, v[i]⟩ : Line) ∈ s := by
      rw [hp.mem_iff, mem_number]
      exact ⟨by dsimp only; omega, by dsimp only; rw [show 1 + i - 1 = i by omega]; exact hv⟩
    have := h2 ⟨1 + i, f v[i]⟩ (List.mem_map.2 ⟨_, hm, rfl⟩)
    rw [this, hv]; rfl
  · have : a'.length ≤ 1 + i := by omega
    rw [List.getElem?_eq_none this, List.getElem?_eq_none (by omega)]; rfl

/-- The same for memory filled with one value. -/
theorem unsort_classes (v : List Int) (s : List Line) (hp : s.Perm (number 1 v)) (f : Int → Int)
    (junk : Int) :
    ∃ cls, unsort (s.map fun l => ⟨l.serial, f l.value⟩) (List.replicate (v.length + 1) junk) = some cls ∧
      cls.drop 1 = v.map f := by
  obtain ⟨cls, e, h, _⟩ := unsort_classes' v s hp f (List.replicate (v.length + 1) junk) (by simp)
  exact ⟨cls, e, h⟩

/-! ### classes -/

theorem vsorted_split (v : Int) (bs : List Line) (h : VSorted bs) :
    bs = bs.filter (fun b => decide (b.value < v)) ++ bs.filter (fun b => b.value == v) ++
      bs.filter (fun b => decide (v < b.value)) := by
  induction bs with
  | nil => rfl
  | cons b bs ih =>
    unfold VSorted at h ih
    rw [List.pairwise_cons] at h
    have ih := ih h.2
    rcases Int.lt_trichotomy b.value v with hlt | heq | hgt
    · have h2 : ¬ v < b.value := by omega
      have h3 : ¬ b.value = v := by omega
      simp only [List.filter_cons, hlt, decide_true, if_true, beq_iff_eq, h3, if_false, h2,
        decide_false, Bool.false_eq_true, List.cons_append]
      rw [← ih]
    · have h1 : bs.filter (fun b => decide (b.value < v)) = [] := by
        rw [List.filter_eq_nil_iff]; intro x hx; have := h.1 x hx; simp; omega
      have h4 : ¬ b.value < v := by omega
      have h2 : ¬ v < b.value := by omega
      rw [h1] at ih
      rw [List.filter_cons_of_neg (by simpa using h4), List.filter_cons_of_pos (by simpa using heq),
        List.filter_cons_of_neg (by simpa using h2), h1]
      simp only [List.nil_append, List.cons_append] at ih ⊢
      rw [← ih]
    · have h1 : bs.filter (fun b => decide (b.value < v)) = [] := by
        rw [List.filter_eq_nil_iff]; intro x hx; have := h.1 x hx; simp; omega
      have h2 : bs.filter (fun b => b.value == v) = [] := by
        rw [List.filter_eq_nil_iff]; intro x hx; have := h.1 x hx; simp; omega
      have h3 : ¬ b.value < v := by omega
      have h4 : ¬ b.value = v := by omega
      rw [h1, h2] at ih
      simp only [List.filter_cons, h3, decide_false, Bool.false_eq_true, if_false, beq_iff_eq, h4,
        hgt, decide_true, if_true, h1, h2, List.nil_append]
      simp only [List.nil_append] at ih
      rw [← ih]

/-- The (1-based) positions at which `v` occurs, ascending. -/
def ysOf (vs : List Int) (v : Int) : List Nat :=
  ((number 1 vs).filter (fun b => b.value == v)).map Line.serial

theorem mem_ysOf (vs : List Int) (v : Int) (y : Nat) :
    y ∈ ysOf vs v ↔ 1 ≤ y ∧ vs[y - 1]? = some v := by
  simp only [ysOf, List.mem_map, List.mem_filter, mem_number, beq_iff_eq]
  constructor
  · rintro ⟨l, ⟨⟨h1, h2⟩, h3⟩, rfl⟩; exact ⟨h1, by rw [h2, h3]⟩
  · rintro ⟨h1, h2⟩; exact ⟨⟨y, v⟩, ⟨⟨h1, h2⟩, rfl⟩, rfl⟩

theorem number_pairwise_serial (k : Nat) (vs : List Int) :
    (number k vs).Pairwise fun a b => a.serial < b.serial := by
  rw [List.pairwise_iff_getElem]
  intro i j hi hj hij
  have h1 := number_getElem? k vs i
  have h2 := number_getElem? k vs j
  rw [number_length] at hi hj
  rw [List.getElem?_eq_getElem (by rw [number_length]; omega), List.getElem?_eq_getElem hi] at h1
  rw [List.getElem?_eq_getElem (by rw [number_length]; omega), List.getElem?_eq_getElem hj] at h2
  simp only [Option.map_some, Option.some.injEq] at h1 h2
  rw [h1, h2]; dsimp only; omega

theorem ysOf_sorted (vs : List Int) (v : Int) : (ysOf vs v).Pairwise (· < ·) := by
  unfold ysOf
  rw [List.pairwise_map]
  exact (number_pairwise_serial 1 vs).sublist List.filter_sublist

/-- The lines of one class in the sorted order are the positions in ascending order. -/
theorem class_serials (vs : List Int) (bs : List Line) (hp : bs.Perm (number 1 vs))
    (hs : bs.Pairwise Lt) (v : Int) :
    (bs.filter (fun b => b.value == v)).map Line.serial = ysOf vs v := by
  have hperm : ((bs.filter (fun b => b.value == v)).map Line.serial).Perm (ysOf vs v) :=
    (hp.filter _).map _
  have hsort : ((bs.filter (fun b => b.value == v)).map Line.serial).Pairwise (· < ·) := by
    rw [List.pairwise_map]
    have h1 : (bs.filter (fun b => b.value == v)).Pairwise Lt := hs.sublist List.filter_sublist
    refine List.Pairwise.imp_of_mem ?_ h1
    intro a b ha hb hab
    simp only [List.mem_filter, beq_iff_eq] at ha hb
    unfold Lt at hab; omega
  exact hperm.eq_of_pairwise (fun a b _ _ h1 h2 => absurd (Nat.lt_trans h1 h2) (by omega)) hsort
    (ysOf_sorted vs v)

/-- The array `member` around a class. -/
structure ClassAt (b : List Int) (j : Nat) (ys : List Nat) : Prop where
  first : ∀ y : Nat, ys[0]? = some y → b[j]? = some (-(y : Int))
  rest : ∀ t y : Nat, 1 ≤ t → ys[t]? = some y → b[j + t]? = some (y : Int)
  stop : ∃ z, b[j + ys.length]? = some z ∧ z ≤ 0
  fits : j + ys.length < b.length

theorem classAt_of_filled (vs : List Int) (bs : List Line) (hp : bs.Perm (number 1 vs))
    (hs : bs.Pairwise Lt) (v : Int) (hv : v ∈ vs) (c : List Int)
    (hf : Filled bs bs.length c) (hend : c[bs.length + 1]? = some (-1)) :
    1 ≤ firstPos bs v ∧
      ClassAt (c.take (vs.length + 2)) (firstPos bs v).toNat (ysOf vs v) ∧ ysOf vs v ≠ [] := by
  have hblen : bs.length = vs.length := by rw [hp.length_eq, number_length]
  have hsplit := vsorted_split v bs (VSorted.of_lt hs)
  have hcls := class_serials vs bs hp hs v
  generalize hpre : bs.filter (fun b => decide (b.value < v)) = pre at hsplit
  generalize hmid : bs.filter (fun b => b.value == v) = mid at hsplit hcls
  generalize hpost : bs.filter (fun b => decide (v < b.value)) = post at hsplit
  have hpre' : ∀ x ∈ pre, x.value < v := by
    intro x hx; rw [← hpre] at hx; simpa using (List.mem_filter.1 hx).2
  have hmid' : ∀ x ∈ mid, x.value = v := by
    intro x hx; rw [← hmid] at hx; simpa using (List.mem_filter.1 hx).2
  have hpost' : ∀ x ∈ post, v < x.value := by
    intro x hx; rw [← hpost] at hx; simpa using (List.mem_filter.1 hx).2
  have hne : ysOf vs v ≠ [] := by
    obtain ⟨i, hi⟩ := List.mem_iff_getElem?.1 hv
    have : i + 1 ∈ ysOf vs v := (mem_ysOf vs v (i + 1)).2 ⟨by omega, by simpa using hi⟩
    intro h; rw [h] at this; simp at this
  have hlenm : mid.length = (ysOf vs v).length := by rw [← hcls, List.length_map]
  have hmlen : 0 < mid.length := by
    rw [hlenm]; exact List.length_pos_iff.2 hne
  have hlen : bs.length = pre.length + mid.length + post.length := by
    rw [hsplit]; simp; omega
  have gpre : ∀ i, i < pre.length → bs[i]? = pre[i]? := by
    intro i hi
    rw [hsplit, List.append_assoc, List.getElem?_append_left hi]
  have gmid : ∀ i, i < mid.length → bs[pre.length + i]? = mid[i]? := by
    intro i hi
    rw [hsplit, List.append_assoc, List.getElem?_append_right (by omega),
      List.getElem?_append_left (by omega)]
    rw [show pre.length + i - pre.length = i by omega]
  have gpost : bs[pre.length + mid.length]? = post[0]? := by
    rw [hsplit, List.getElem?_append_right (by simp)]
    simp
  have hfp : firstPos bs v = (pre.length + 1 : Nat) := by
    apply firstPos_of_first bs v pre.length mid[0]
    · have := gmid 0 hmlen
      rw [Nat.add_zero] at this
      rw [this]; exact List.getElem?_eq_getElem hmlen
    · exact hmid' _ (List.getElem_mem _)
    · intro j' b' hj' hb'
      rw [gpre j' hj'] at hb'
      have := hpre' b' (List.mem_of_getElem? hb')
      omega
  have gys : ∀ t y : Nat, (ysOf vs v)[t]? = some y → ∃ l : Line, mid[t]? = some l ∧ l.serial = y ∧ l.value = v := by
    intro t y h
    rw [← hcls, List.getElem?_map, Option.map_eq_some_iff] at h
    obtain ⟨l, h1, h2⟩ := h
    exact ⟨l, h1, h2, hmid' l (List.mem_of_getElem? h1)⟩
  have htake : ∀ i, i < vs.length + 2 → (c.take (vs.length + 2))[i]? = c[i]? := by
    intro i hi; rw [List.getElem?_take]; simp [hi]
  refine ⟨by rw [hfp]; omega, ?_, hne⟩
  rw [hfp, Int.toNat_natCast]
  constructor
  · intro y hy
    obtain ⟨l, h1, h2, h3⟩ := gys 0 y hy
    rw [htake _ (by omega), hf pre.length (by omega)]
    have hb : bs[pre.length]? = some l := by
      have := gmid 0 hmlen; rw [Nat.add_zero] at this; rw [this, h1]
    simp only [memberAt, hb, Option.map_some]
    by_cases h0 : pre.length = 0
    · simp [h0, h2]
    · have hq : bs[pre.length - 1]? = some pre[pre.length - 1] := by
        rw [gpre _ (by omega)]; exact List.getElem?_eq_getElem (by omega)
      have hlt := hpre' pre[pre.length - 1] (List.getElem_mem _)
      have hne' : ¬ pre[pre.length - 1].value = l.value := by omega
      simp [h0, hq, hne', h2]
  · intro t y ht hy
    obtain ⟨l, h1, h2, h3⟩ := gys t y hy
    have htl := (List.getElem?_eq_some_iff.1 h1).1
    rw [htake _ (by omega)]
    rw [show pre.length + 1 + t = (pre.length + t) + 1 by omega, hf (pre.length + t) (by omega)]
    have hb : bs[pre.length + t]? = some l := by rw [gmid t htl, h1]
    have hb1 : bs[pre.length + t - 1]? = some mid[t - 1] := by
      rw [show pre.length + t - 1 = pre.length + (t - 1) by omega, gmid (t - 1) (by omega)]
      exact List.getElem?_eq_getElem (by omega)
    have hv1 := hmid' mid[t - 1] (List.getElem_mem _)
    have h0 : ¬ (pre.length + t = 0) := by omega
    simp only [memberAt, hb, Option.map_some, hb1, h0, if_false, hv1, h3, if_true, h2]
  · rw [htake _ (by omega), ← hlenm]
    by_cases hp0 : post = []
    · refine ⟨-1, ?_, by omega⟩
      have : pre.length + 1 + mid.length = bs.length + 1 := by rw [hlen, hp0]; simp; omega
      rw [this, hend]
    · have hpl : 0 < post.length := List.length_pos_iff.2 hp0
      have hb : bs[pre.length + mid.length]? = some post[0] := by
        rw [gpost]; exact List.getElem?_eq_getElem hpl
      refine ⟨-(post[0].serial : Int), ?_, by omega⟩
      rw [show pre.length + 1 + mid.length = (pre.length + mid.length) + 1 by omega,
        hf _ (by omega)]
      have hb1 : bs[pre.length + mid.length - 1]? = some mid[mid.length - 1] := by
        rw [show pre.length + mid.length - 1 = pre.length + (mid.length - 1) by omega,
          gmid _ (by omega)]
        exact List.getElem?_eq_getElem (by omega)
      have hv1 := hmid' mid[mid.length - 1] (List.getElem_mem _)
      have hv2 := hpost' post[0] (List.getElem_mem _)
      have h0 : ¬ (pre.length + mid.length = 0) := by omega
      have hne' : ¬ mid[mid.length - 1].value = post[0].value := by omega
      simp [memberAt, hb, hb1, h0, hne']
  · have : bs.length + 1 < c.length := (List.getElem?_eq_some_iff.1 hend).1
    rw [List.length_take, ← hlenm]; omega

theorem firstPos_absent (vs : List Int) (bs : List Line) (hp : bs.Perm (number 1 vs)) (v : Int)
    (hv : v ∉ vs) : firstPos bs v = 0 := by
  apply firstPos_of_absent
  intro b hb he
  rw [hp.mem_iff, mem_number] at hb
  exact hv (by rw [← he]; exact List.mem_of_getElem? hb.2)

end Ohcount.Diff
