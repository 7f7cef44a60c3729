import Verif.DiffEquiv
/-
`stone` of `src/diff.c` finds a longest chain of matches: lemmas for the diff properties.
-/

namespace Ohcount.Diff

/-- A chain of `k` matches within rows `1..i` and columns up to `Y`. -/
def Chain (M : Nat → Int → Prop) : Nat → Nat → Int → Prop
  | 0, _, _ => True
  | k + 1, i, Y => ∃ x y, 1 ≤ x ∧ x ≤ i ∧ y ≤ Y ∧ M x y ∧ Chain M k (x - 1) (y - 1)

/-- The candidate at index `p` ends a chain of `l` matches, the last one at row `x` and
column `y`. -/
inductive CandOk (M : Nat → Int → Prop) (cl : List Cand) : Nat → Nat → Nat → Int → Prop
  | root (p : Nat) (q : Cand) : cl[p]? = some q → q.y = 0 → CandOk M cl p 0 0 0
  | step (p l x : Nat) (y : Int) (pr x' : Nat) (y' : Int) : cl[p]? = some ⟨x, y, pr⟩ → pr < p →
      CandOk M cl pr l x' y' → x' < x → y' < y → M x y → CandOk M cl p (l + 1) x y

theorem CandOk.get {M cl p l x y} (h : CandOk M cl p l x y) : ∃ q : Cand, cl[p]? = some q ∧ q.y = y := by
  cases h with
  | root _ q h1 h2 => exact ⟨q, h1, h2⟩
  | step _ _ _ _ pr _ _ h => exact ⟨_, h, rfl⟩

theorem CandOk.lt {M cl p l x y} (h : CandOk M cl p l x y) : p < cl.length := by
  obtain ⟨q, hq, _⟩ := h.get
  exact (List.getElem?_eq_some_iff.1 hq).1

theorem CandOk.append {M cl p l x y} (h : CandOk M cl p l x y) (z : Cand) :
    CandOk M (cl ++ [z]) p l x y := by
  induction h with
  | root p q h1 h2 =>
    exact .root p q (by rw [List.getElem?_append_left (List.getElem?_eq_some_iff.1 h1).1]; exact h1) h2
  | step p l x y pr x' y' h1 h2 _ h4 h5 h6 ih =>
    exact .step p l x y pr x' y'
      (by rw [List.getElem?_append_left (List.getElem?_eq_some_iff.1 h1).1]; exact h1) h2 ih h4 h5 h6

theorem mono_lt {T : Nat → Int} {k : Nat} (h : ∀ l, l < k → T l < T (l + 1)) :
    ∀ b a, a < b → b ≤ k → T a < T b := by
  intro b
  induction b with
  | zero => intro a h1; omega
  | succ b ih =>
    intro a h1 h2
    have hb := h b (by omega)
    rcases Nat.lt_or_ge a b with h3 | h3
    · have := ih a h3 (by omega); omega
    · have : a = b := by omega
      subst this; exact hb

theorem mono_le {T : Nat → Int} {k : Nat} (h : ∀ l, l < k → T l < T (l + 1)) (a b : Nat)
    (hab : a ≤ b) (hb : b ≤ k) : T a ≤ T b := by
  rcases Nat.eq_or_lt_of_le hab with rfl | h1
  · omega
  · have := mono_lt h b a h1 hb; omega

/-! ### search -/

theorem searchLoop_spec (cl : List Cand) (c : List Nat) (k : Nat) (T : Nat → Int) (y : Int)
    (hT : ∀ l, l ≤ k → candY cl c l = some (T l)) (hm : ∀ l, l < k → T l < T (l + 1))
    (fuel : Nat) : ∀ i j, i < j → j ≤ k + 1 → j - i < fuel → T i < y → (j ≤ k → y < T j) →
      ∃ l, searchLoop cl c y fuel i j = some l ∧ 1 ≤ l ∧ l ≤ k + 1 ∧ T (l - 1) < y ∧ (l ≤ k → y ≤ T l) := by
  induction fuel with
  | zero => intros; omega
  | succ fuel ih =>
    intro i j hij hjk hf hi hj
    rw [searchLoop]
    by_cases hl : (i + j) / 2 > i
    · simp only [hl, if_true]
      rw [hT _ (by omega)]
      dsimp only
      by_cases h1 : T ((i + j) / 2) > y
      · simp only [h1, if_true]
        exact ih i _ hl (by omega) (by omega) hi (fun _ => h1)
      · by_cases h2 : T ((i + j) / 2) < y
        · simp only [h1, if_false, h2, if_true]
          exact ih _ j (by omega) hjk (by omega) h2 hj
        · simp only [h1, if_false, h2]
          refine ⟨_, rfl, by omega, by omega, ?_, fun _ => by omega⟩
          have := hm ((i + j) / 2 - 1) (by omega)
          rw [show (i + j) / 2 - 1 + 1 = (i + j) / 2 by omega] at this
          omega
    · simp only [hl, if_false]
      have h1 : (i + j) / 2 = i := by omega
      have h2 : j = i + 1 := by omega
      refine ⟨_, rfl, by omega, by omega, by rw [h1]; simpa using hi, ?_⟩
      rw [h1, ← h2]; intro h; have := hj h; omega

theorem search_spec (cl : List Cand) (c : List Nat) (k : Nat) (T : Nat → Int) (y : Int)
    (hT : ∀ l, l ≤ k → candY cl c l = some (T l)) (hm : ∀ l, l < k → T l < T (l + 1))
    (h0 : T 0 < y) :
    ∃ l, search cl c k y = some l ∧ 1 ≤ l ∧ l ≤ k + 1 ∧ T (l - 1) < y ∧ (l ≤ k → y ≤ T l) := by
  rw [search, hT k (Nat.le_refl _)]
  dsimp only
  by_cases h : T k < y
  · simp only [h, if_true]
    exact ⟨k + 1, rfl, by omega, by omega, by simpa using h, fun h => by omega⟩
  · simp only [h, if_false]
    exact searchLoop_spec cl c k T y hT hm (k + 2) 0 (k + 1) (by omega) (by omega) (by omega) h0
      (fun h => by omega)

/-! ### one row -/

/-- The `do` loop over a list of columns. -/
def rowFold (i : Nat) : Stone → Nat → Nat → List Int → Option Stone
  | s, _, _, [] => some s
  | s, oldl, oldc, y :: ys =>
    (stoneStep i s oldl oldc y).bind fun (s', oldl', oldc', brk) =>
      if brk then some s' else rowFold i s' oldl' oldc' ys

theorem stoneRow_eq (b : List Int) (i : Nat) : ∀ (rest : List Nat) (fuel : Nat) (s : Stone)
    (j oldl oldc : Nat) (y : Int), rest.length < fuel →
    (∀ u z : Nat, rest[u]? = some z → b[j + 1 + u]? = some (z : Int) ∧ 0 < z) →
    (∃ z, b[j + 1 + rest.length]? = some z ∧ z ≤ 0) →
    stoneRow b i fuel s j oldl oldc y = rowFold i s oldl oldc (y :: rest.map Int.ofNat) := by
  intro rest
  induction rest with
  | nil =>
    intro fuel s j oldl oldc y hf _ hz
    obtain ⟨f, rfl⟩ : ∃ f, fuel = f + 1 := ⟨fuel - 1, by simp at hf; omega⟩
    obtain ⟨z, hz1, hz2⟩ := hz
    simp only [List.length_nil, Nat.add_zero] at hz1
    have : ¬ z > 0 := by omega
    simp only [stoneRow, rowFold, hz1, this, if_false, List.map_nil]
  | cons r rest ih =>
    intro fuel s j oldl oldc y hf hr hz
    obtain ⟨f, rfl⟩ : ∃ f, fuel = f + 1 := ⟨fuel - 1, by simp at hf; omega⟩
    obtain ⟨hb, hpos⟩ := hr 0 r rfl
    rw [Nat.add_zero] at hb
    have hp : (r : Int) > 0 := by omega
    simp only [stoneRow, rowFold, hb, hp, if_true, List.map_cons]
    congr 1
    funext ⟨s', oldl', oldc', brk⟩
    dsimp only
    split
    · rfl
    · rw [ih f s' (j + 1) oldl' oldc' r (by simp at hf; omega) ?_ ?_]
      · rfl
      · intro u z hu
        have := hr (u + 1) z (by simpa using hu)
        rw [show j + 1 + 1 + u = j + 1 + (u + 1) by omega]; exact this
      · obtain ⟨z, h1, h2⟩ := hz
        exact ⟨z, by rw [← h1, List.length_cons]; congr 1; omega, h2⟩

/-- The state in the middle of row `i + 1`; `T0` and `k0` are as before the row. -/
structure Mid (M : Nat → Int → Prop) (i n k0 : Nat) (T0 : Nat → Int) (done rem : List Int)
    (s : Stone) (oldl oldc : Nat) (T : Nat → Int) : Prop where
  k : s.k = k0
  len : s.c.length = n + 2
  zero : T 0 = 0
  mono : ∀ l, l < k0 → T l < T (l + 1)
  oldl_le : oldl ≤ k0
  same : ∀ l, oldl < l → l ≤ k0 → T l = T0 l
  le : ∀ l, l ≤ k0 → T l ≤ T0 l
  cands : ∀ l, l ≤ k0 → ∃ p x, s.c[l]? = some p ∧ CandOk M s.cl p l x (T l) ∧ x ≤ i + 1 ∧
    (oldl < l → x ≤ i)
  oldlt : ∀ y ∈ rem, T oldl < y
  old : (∃ x, CandOk M s.cl oldc oldl x (T0 oldl) ∧ x ≤ i) ∨
    (∃ q : Cand, s.cl[oldc]? = some q ∧ (∀ y ∈ rem, q.y < y) ∧ oldl + 1 ≤ k0 ∧
      ∀ y ∈ rem, T (oldl + 1) < y)
  done : ∀ y ∈ done, ∀ l, l ≤ k0 → T0 l < y → l + 1 ≤ k0 ∧ T (l + 1) ≤ y

/-- The state after row `i + 1`. -/
structure Post (M : Nat → Int → Prop) (i n k0 : Nat) (T0 : Nat → Int) (ys : List Int)
    (s : Stone) (T : Nat → Int) : Prop where
  kle : s.k ≤ k0 + 1
  kge : k0 ≤ s.k
  len : s.c.length = n + 2
  zero : T 0 = 0
  mono : ∀ l, l < s.k → T l < T (l + 1)
  le : ∀ l, l ≤ k0 → T l ≤ T0 l
  cands : ∀ l, l ≤ s.k → ∃ p x, s.c[l]? = some p ∧ CandOk M s.cl p l x (T l) ∧ x ≤ i + 1
  done : ∀ y ∈ ys, ∀ l, l ≤ k0 → T0 l < y → l + 1 ≤ s.k ∧ T (l + 1) ≤ y

theorem candY_of {cl : List Cand} {c : List Nat} {l p : Nat} {M : Nat → Int → Prop} {x y}
    (h1 : c[l]? = some p) (h2 : CandOk M cl p l x y) : candY cl c l = some y := by
  obtain ⟨q, hq, hy⟩ := h2.get
  simp [candY, h1, hq, hy]

theorem install_ok (s : Stone) (l i : Nat) (y : Int) (pr : Nat) (h : l < s.c.length) :
    install s l i y pr = some ⟨s.c.set l s.cl.length, s.cl ++ [⟨i, y, pr⟩], s.k⟩ := by
  simp [install, put_ok _ _ _ h]

theorem rowFold_spec (M : Nat → Int → Prop) (i n k0 : Nat) (T0 : Nat → Int)
    (hk : k0 ≤ i) (hin : i < n) (hm0 : ∀ l, l < k0 → T0 l < T0 (l + 1)) (rem : List Int) :
    ∀ (done : List Int) (s : Stone) (oldl oldc : Nat) (T : Nat → Int),
      Mid M i n k0 T0 done rem s oldl oldc T → rem.Pairwise (· < ·) → (∀ y ∈ rem, M (i + 1) y) →
      ∃ s' T', rowFold (i + 1) s oldl oldc rem = some s' ∧ Post M i n k0 T0 (done ++ rem) s' T' := by
  induction rem with
  | nil =>
    intro done s oldl oldc T h _ _
    refine ⟨s, T, rfl, ?_⟩
    exact { kle := by rw [h.k]; omega, kge := by rw [h.k]; omega, len := h.len, zero := h.zero,
            mono := by rw [h.k]; exact h.mono, le := h.le,
            cands := by
              rw [h.k]; intro l hl
              obtain ⟨p, x, a, b, c, _⟩ := h.cands l hl
              exact ⟨p, x, a, b, c⟩
            done := by rw [h.k, List.append_nil]; exact h.done }
  | cons y rem ih =>
    intro done s oldl oldc T h hs hM
    rw [List.pairwise_cons] at hs
    have hMy := hM y (by simp)
    have hTy : T oldl < y := h.oldlt y (by simp)
    have hcy : ∀ l, l ≤ k0 → candY s.cl s.c l = some (T l) := by
      intro l hl
      obtain ⟨p, x, a, b, _⟩ := h.cands l hl
      exact candY_of a b
    have h0y : T 0 < y := by
      have := mono_le h.mono 0 oldl (by omega) h.oldl_le; omega
    -- the step that leaves everything as it was
    have keep : ∀ oldc', ((∃ x, CandOk M s.cl oldc' oldl x (T0 oldl) ∧ x ≤ i) ∨
          (∃ q : Cand, s.cl[oldc']? = some q ∧ (∀ y ∈ rem, q.y < y) ∧ oldl + 1 ≤ k0 ∧
            ∀ y ∈ rem, T (oldl + 1) < y)) →
        (∀ l, l ≤ k0 → T0 l < y → l + 1 ≤ k0 ∧ T (l + 1) ≤ y) →
        stoneStep (i + 1) s oldl oldc y = some (s, oldl, oldc', false) →
        ∃ s' T', rowFold (i + 1) s oldl oldc (y :: rem) = some s' ∧
          Post M i n k0 T0 (done ++ y :: rem) s' T' := by
      intro oldc' hold hdone hstep
      obtain ⟨s', T', e, hp⟩ := ih (done ++ [y]) s oldl oldc' T
        { h with
          oldlt := fun z hz => h.oldlt z (by simp [hz])
          old := hold
          done := by
            intro z hz
            rcases List.mem_append.1 hz with h1 | h1
            · exact h.done z h1
            · simp at h1; subst h1; exact hdone } hs.2 (fun z hz => hM z (by simp [hz]))
      refine ⟨s', T', ?_, by simpa using hp⟩
      simp [rowFold, hstep, e]
    obtain ⟨oc, hoc⟩ : ∃ oc : Cand, s.cl[oldc]? = some oc := by
      rcases h.old with ⟨x, h1, _⟩ | ⟨q, h1, _⟩
      · obtain ⟨q, hq, _⟩ := h1.get; exact ⟨q, hq⟩
      · exact ⟨q, h1⟩
    by_cases hle : y ≤ oc.y
    · -- skipped
      have hold : ∃ x, CandOk M s.cl oldc oldl x (T0 oldl) ∧ x ≤ i := by
        rcases h.old with h1 | ⟨q, h1, h2, _⟩
        · exact h1
        · rw [hoc] at h1; cases h1
          have := h2 y (by simp); omega
      have hocy : oc.y = T0 oldl := by
        obtain ⟨x, h1, _⟩ := hold
        obtain ⟨q, hq, hy⟩ := h1.get
        rw [hoc] at hq; cases hq; exact hy
      refine keep oldc (Or.inl hold) ?_ (by simp [stoneStep, hoc, hle])
      intro l hl hlt
      have hlo : l < oldl := by
        rcases Nat.lt_or_ge l oldl with h1 | h1
        · exact h1
        · have := mono_le hm0 oldl l h1 hl; omega
      have hoo := h.oldl_le
      have := mono_le h.mono (l + 1) oldl (by omega) hoo
      exact ⟨by omega, by omega⟩
    · obtain ⟨l, hsrch, hl1, hl2, hl3, hl4⟩ := search_spec s.cl s.c k0 T y hcy h.mono h0y
      rw [← h.k] at hsrch
      -- the level found lies above oldl
      have hlo : oldl < l := by
        rcases Nat.lt_or_ge oldl l with h1 | h1
        · exact h1
        · have hoo := h.oldl_le
          have h2 := hl4 (by omega)
          have := mono_le h.mono l oldl h1 h.oldl_le; omega
      -- the predecessor
      have hpred : ∃ oldc' x, (if l ≠ oldl + 1 then s.c[l - 1]? else some oldc) = some oldc' ∧
          CandOk M s.cl oldc' (l - 1) x (T0 (l - 1)) ∧ x ≤ i ∧ T0 (l - 1) < y ∧
          (l = oldl + 1 → oldc' = oldc) := by
        by_cases hc : l = oldl + 1
        · subst hc
          have hold : ∃ x, CandOk M s.cl oldc oldl x (T0 oldl) ∧ x ≤ i := by
            rcases h.old with h1 | ⟨q, h1, h2, h3, h4⟩
            · exact h1
            · have h5 := h4 y (by simp)
              have := hl4 h3; omega
          obtain ⟨x, h1, h2⟩ := hold
          obtain ⟨q, hq, hy⟩ := h1.get
          rw [hoc] at hq; cases hq
          exact ⟨oldc, x, by simp, by simpa using h1, h2, by simp; omega, fun _ => rfl⟩
        · obtain ⟨p, x, a, b, c, d⟩ := h.cands (l - 1) (by omega)
          have hsame := h.same (l - 1) (by omega) (by omega)
          rw [hsame] at b hl3
          exact ⟨p, x, by simp [hc, a], b, d (by omega), hl3, fun e => absurd e hc⟩
      obtain ⟨oldc', x', hpe, hpo, hpx, hpy, hpc⟩ := hpred
      have hput : l < s.c.length := by rw [h.len]; omega
      have hnew : CandOk M (s.cl ++ [⟨i + 1, y, oldc'⟩]) s.cl.length l (i + 1) y := by
        have := CandOk.step (M := M) (cl := s.cl ++ [⟨i + 1, y, oldc'⟩]) s.cl.length (l - 1) (i + 1) y
          oldc' x' (T0 (l - 1)) (by simp) hpo.lt (hpo.append _) (by omega) hpy hMy
        rwa [show l - 1 + 1 = l by omega] at this
      by_cases hlk : l ≤ k0
      · have hTl : T l = T0 l := h.same l hlo hlk
        by_cases heq : T l ≤ y
        · -- already there
          have hTe : T l = y := by have := hl4 hlk; omega
          refine keep oldc' ?_ ?_ ?_
          · by_cases hc : l = oldl + 1
            · left
              subst hc
              exact ⟨x', by simpa using hpo, hpx⟩
            · right
              obtain ⟨q, hq, hqy⟩ := hpo.get
              refine ⟨q, hq, ?_, by omega, ?_⟩
              · intro z hz; have := hs.1 z hz; omega
              · intro z hz
                have := hs.1 z hz
                have := mono_le h.mono (oldl + 1) l (by omega) hlk
                omega
          · intro l' hl' hlt
            have : l' < l := by
              rcases Nat.lt_or_ge l' l with h1 | h1
              · exact h1
              · have := mono_le hm0 l l' h1 hl'; omega
            have := mono_le h.mono (l' + 1) l (by omega) hlk
            exact ⟨by omega, by omega⟩
          · simp only [stoneStep, hoc, hle, if_false, hsrch, Option.bind_some, hpe]
            rw [h.k]
            simp only [hlk, if_true, hcy l hlk, Option.bind_some, heq]
        · -- replaced
          obtain ⟨p, xl, a, b, c, d⟩ := h.cands l hlk
          have hstep : stoneStep (i + 1) s oldl oldc y = some
              (⟨s.c.set l s.cl.length, s.cl ++ [⟨i + 1, y, oldc'⟩], s.k⟩, l, p, false) := by
            simp only [stoneStep, hoc, hle, if_false, hsrch, Option.bind_some, hpe]
            rw [install_ok s l (i + 1) y oldc' hput]
            rw [h.k]
            simp only [hlk, if_true, hcy l hlk, Option.bind_some, heq, if_false, a]
          obtain ⟨s', T', e, hp⟩ := ih (done ++ [y])
            ⟨s.c.set l s.cl.length, s.cl ++ [⟨i + 1, y, oldc'⟩], s.k⟩ l p
            (fun t => if t = l then y else T t)
            { k := h.k
              len := by simpa using h.len
              zero := by
                have : ¬ 0 = l := by omega
                simp [this, h.zero]
              mono := by
                intro t ht
                have hm := h.mono t ht
                by_cases h1 : t = l
                · have h2 : ¬ t + 1 = l := by omega
                  rw [if_pos h1, if_neg h2]; subst h1; omega
                · by_cases h2 : t + 1 = l
                  · rw [if_neg h1, if_pos h2]
                    have : l - 1 = t := by omega
                    rw [this] at hl3; exact hl3
                  · rw [if_neg h1, if_neg h2]; exact hm
              oldl_le := hlk
              same := by
                intro t h1 h2
                have : ¬ t = l := by omega
                simp only [this, if_false]; exact h.same t (by omega) h2
              le := by
                intro t ht
                by_cases h1 : t = l
                · rw [if_pos h1]; subst h1; omega
                · rw [if_neg h1]; exact h.le t ht
              cands := by
                intro t ht
                by_cases h1 : t = l
                · subst h1
                  refine ⟨s.cl.length, i + 1, by rw [List.getElem?_set_self hput], ?_, by omega, by omega⟩
                  simpa using hnew
                · obtain ⟨p', x, e1, e2, e3, e4⟩ := h.cands t ht
                  refine ⟨p', x, by rw [List.getElem?_set_ne (by omega)]; exact e1, ?_, e3, fun h => e4 (by omega)⟩
                  simpa [h1] using e2.append _
              oldlt := by
                intro z hz
                simp only [if_true]; exact hs.1 z hz
              old := Or.inl ⟨xl, by rw [← hTl]; exact b.append _, d hlo⟩
              done := by
                intro z hz t ht hlt
                rcases List.mem_append.1 hz with h1 | h1
                · obtain ⟨u1, u2⟩ := h.done z h1 t ht hlt
                  refine ⟨u1, ?_⟩
                  by_cases h2 : t + 1 = l
                  · rw [if_pos h2]; rw [h2] at u2; omega
                  · rw [if_neg h2]; exact u2
                · simp at h1; subst h1
                  have htl : t < l := by
                    rcases Nat.lt_or_ge t l with h1 | h1
                    · exact h1
                    · have := mono_le hm0 l t h1 ht; omega
                  refine ⟨by omega, ?_⟩
                  by_cases h2 : t + 1 = l
                  · rw [if_pos h2]; omega
                  · rw [if_neg h2]
                    have := mono_le h.mono (t + 1) (l - 1) (by omega) (by omega); omega }
            hs.2 (fun z hz => hM z (by simp [hz]))
          refine ⟨s', T', ?_, by simpa using hp⟩
          simp [rowFold, hstep, e]
      · -- a longer chain
        have hlk' : l = k0 + 1 := by omega
        have hstep : stoneStep (i + 1) s oldl oldc y = some
            (⟨s.c.set l s.cl.length, s.cl ++ [⟨i + 1, y, oldc'⟩], s.k + 1⟩, oldl, oldc', true) := by
          simp only [stoneStep, hoc, hle, if_false, hsrch, Option.bind_some, hpe]
          rw [install_ok s l (i + 1) y oldc' hput]
          have : ¬ l ≤ s.k := by rw [h.k]; exact hlk
          simp only [this, if_false, Option.bind_some]
        refine ⟨_, fun t => if t = l then y else T t, by simp [rowFold, hstep]; rfl, ?_⟩
        exact
          { kle := by dsimp only; rw [h.k]; omega
            kge := by dsimp only; rw [h.k]; omega
            len := by simpa using h.len
            zero := by
              have : ¬ 0 = l := by omega
              simp [this, h.zero]
            mono := by
              intro t ht
              dsimp only at ht ⊢
              rw [h.k] at ht
              by_cases h2 : t + 1 = l
              · have h1 : ¬ t = l := by omega
                rw [if_neg h1, if_pos h2]
                have : l - 1 = t := by omega
                rw [this] at hl3; exact hl3
              · have h1 : ¬ t = l := by omega
                rw [if_neg h1, if_neg h2]; exact h.mono t (by omega)
            le := by
              intro t ht
              have h1 : ¬ t = l := by omega
              simp only [h1, if_false]; exact h.le t ht
            cands := by
              intro t ht
              dsimp only at ht ⊢
              rw [h.k] at ht
              by_cases h1 : t = l
              · subst h1
                refine ⟨s.cl.length, i + 1, by rw [List.getElem?_set_self hput], ?_, by omega⟩
                simpa using hnew
              · obtain ⟨p', x, e1, e2, e3, e4⟩ := h.cands t (by omega)
                refine ⟨p', x, by rw [List.getElem?_set_ne (by omega)]; exact e1, ?_, e3⟩
                simpa [h1] using e2.append _
            done := by
              intro z hz t ht hlt
              dsimp only
              rw [h.k]
              rcases List.mem_append.1 hz with h1 | h1
              · obtain ⟨u1, u2⟩ := h.done z h1 t ht hlt
                have h2 : ¬ t + 1 = l := by omega
                exact ⟨by omega, by rw [if_neg h2]; exact u2⟩
              · refine ⟨by omega, ?_⟩
                have hzy : y ≤ z := by
                  rcases List.mem_cons.1 h1 with h3 | h3
                  · omega
                  · have := hs.1 z h3; omega
                by_cases h2 : t + 1 = l
                · rw [if_pos h2]; exact hzy
                · rw [if_neg h2]
                  have := mono_le h.mono (t + 1) (l - 1) (by omega) (by omega); omega }

/-! ### all rows -/

/-- The state after `i` rows. -/
structure StoneInv (M : Nat → Int → Prop) (i n : Nat) (s : Stone) (T : Nat → Int) : Prop where
  kle : s.k ≤ i
  len : s.c.length = n + 2
  zero : T 0 = 0
  mono : ∀ l, l < s.k → T l < T (l + 1)
  cands : ∀ l, l ≤ s.k → ∃ p x, s.c[l]? = some p ∧ CandOk M s.cl p l x (T l) ∧ x ≤ i
  complete : ∀ l Y, 1 ≤ l → Chain M l i Y → l ≤ s.k ∧ T l ≤ Y

theorem Chain.mono_row {M : Nat → Int → Prop} {l i i' : Nat} {Y : Int} (h : Chain M l i Y)
    (hi : i ≤ i') : Chain M l i' Y := by
  cases l with
  | zero => trivial
  | succ l =>
    obtain ⟨x, y, h1, h2, h3, h4⟩ := h
    exact ⟨x, y, h1, by omega, h3, h4⟩

/-- Matches of the lists `A` and `B`. -/
def Match (A B : List Int) (x : Nat) (y : Int) : Prop :=
  1 ≤ x ∧ 1 ≤ y ∧ ∃ v, A[x - 1]? = some v ∧ B[y.toNat - 1]? = some v

theorem match_iff_ysOf (A B : List Int) (i : Nat) (v : Int) (hv : A[i]? = some v) (y : Int) :
    Match A B (i + 1) y ↔ y ∈ (ysOf B v).map Int.ofNat := by
  simp only [Match, List.mem_map, mem_ysOf, Nat.add_sub_cancel, hv]
  constructor
  · rintro ⟨_, h1, w, h2, h3⟩
    cases h2
    exact ⟨y.toNat, ⟨by omega, h3⟩, by simp; omega⟩
  · rintro ⟨z, ⟨h1, h2⟩, rfl⟩
    exact ⟨by omega, by simp; omega, v, rfl, by simpa using h2⟩

theorem stoneLoop_spec (A B : List Int) (b : List Int) (f : Int → Int)
    (hin : ∀ v, v ∈ B → 1 ≤ f v ∧ ClassAt b (f v).toNat (ysOf B v) ∧ ysOf B v ≠ [])
    (hout : ∀ v, v ∉ B → f v = 0) (A2 : List Int) :
    ∀ (i : Nat) (s : Stone) (T : Nat → Int), A.drop i = A2 → i ≤ A.length →
      StoneInv (Match A B) i A.length s T →
      ∃ s' T', stoneLoop b (i + 1) (A2.map f) s = some s' ∧
        StoneInv (Match A B) A.length A.length s' T' := by
  induction A2 with
  | nil =>
    intro i s T hd hi h
    have : i = A.length := by rw [List.drop_eq_nil_iff] at hd; omega
    subst this
    exact ⟨s, T, rfl, h⟩
  | cons v A2 ih =>
    intro i s T hd hi h
    have hlt : i < A.length := by
      rcases Nat.lt_or_ge i A.length with h1 | h1
      · exact h1
      · rw [List.drop_eq_nil_iff.2 h1] at hd; simp at hd
    have hAv : A[i]? = some v := by
      have : (A.drop i)[0]? = some v := by rw [hd]; rfl
      rwa [List.getElem?_drop, Nat.add_zero] at this
    have hd' : A.drop (i + 1) = A2 := by
      rw [← List.tail_drop, hd]; rfl
    rw [List.map_cons, stoneLoop]
    by_cases hvB : v ∈ B
    · obtain ⟨hf1, hcls, hne⟩ := hin v hvB
      have hf0 : ¬ f v = 0 := by omega
      obtain ⟨y0, ys, hys⟩ : ∃ y0 ys, ysOf B v = y0 :: ys := by
        cases hy : ysOf B v with
        | nil => exact absurd hy hne
        | cons a b => exact ⟨a, b, rfl⟩
      have hfirst := hcls.first y0 (by rw [hys]; rfl)
      obtain ⟨p0, x0, hc0, hok0, hx0⟩ := h.cands 0 (by omega)
      simp only [hf0, if_false, hfirst, hc0]
      have hrow : stoneRow b (i + 1) (b.length + 1) s (f v).toNat 0 p0 (-(-(y0 : Int))) =
          rowFold (i + 1) s 0 p0 ((ysOf B v).map Int.ofNat) := by
        rw [hys, List.map_cons, stoneRow_eq b (i + 1) ys]
        · congr 1; simp
        · have := hcls.fits; rw [hys, List.length_cons] at this; omega
        · intro u z hu
          have h1 := hcls.rest (u + 1) z (by omega) (by rw [hys]; simpa using hu)
          have hz : z ∈ ysOf B v := by rw [hys]; exact List.mem_cons_of_mem _ (List.mem_of_getElem? hu)
          rw [mem_ysOf] at hz
          exact ⟨by rw [← h1]; congr 1; omega, by omega⟩
        · obtain ⟨z, h1, h2⟩ := hcls.stop
          rw [hys, List.length_cons] at h1
          exact ⟨z, by rw [← h1]; congr 1; omega, h2⟩
      rw [hrow]
      have hMid : Mid (Match A B) i A.length s.k T [] ((ysOf B v).map Int.ofNat) s 0 p0 T :=
        { k := rfl, len := h.len, zero := h.zero, mono := h.mono, oldl_le := by omega,
          same := fun _ _ _ => rfl, le := fun _ _ => Int.le_refl _,
          cands := by
            intro l hl
            obtain ⟨p, x, a, b, c⟩ := h.cands l hl
            exact ⟨p, x, a, b, by omega, fun _ => c⟩
          oldlt := by
            intro y hy
            rw [h.zero]
            have := ((match_iff_ysOf A B i v hAv y).2 hy).2.1
            omega
          old := Or.inl ⟨x0, hok0, hx0⟩
          done := by intro y hy; simp at hy }
      obtain ⟨s', T', e, hp⟩ := rowFold_spec (Match A B) i A.length s.k T h.kle hlt h.mono
        ((ysOf B v).map Int.ofNat) [] s 0 p0 T hMid
        (by
          rw [List.pairwise_map]
          refine (ysOf_sorted B v).imp ?_
          intro a b hab; simp; omega)
        (fun y hy => (match_iff_ysOf A B i v hAv y).2 hy)
      rw [e, Option.bind_some]
      refine ih (i + 1) s' T' hd' (by omega) ?_
      have hk1 := hp.kle
      have hk2 := h.kle
      exact
        { kle := by omega, len := hp.len, zero := hp.zero, mono := hp.mono, cands := hp.cands
          complete := by
            intro l Y hl hc
            obtain ⟨l', rfl⟩ : ∃ l', l = l' + 1 := ⟨l - 1, by omega⟩
            obtain ⟨x, y, h1, h2, h3, h4, h5⟩ := hc
            rcases Nat.lt_or_ge x (i + 1) with hx | hx
            · obtain ⟨u1, u2⟩ := h.complete (l' + 1) Y hl ⟨x, y, h1, by omega, h3, h4, h5⟩
              have := hp.le (l' + 1) u1
              have := hp.kge
              exact ⟨by omega, by omega⟩
            · have hxe : x = i + 1 := by omega
              subst hxe
              have hmem := (match_iff_ysOf A B i v hAv y).1 h4
              have hlow : l' ≤ s.k ∧ T l' < y := by
                by_cases h0 : l' = 0
                · subst h0; rw [h.zero]; exact ⟨by omega, by have := h4.2.1; omega⟩
                · obtain ⟨u1, u2⟩ := h.complete l' (y - 1) (by omega) (by simpa using h5)
                  exact ⟨u1, by omega⟩
              obtain ⟨w1, w2⟩ := hp.done y (by simpa using hmem) l' hlow.1 hlow.2
              exact ⟨w1, by omega⟩ }
    · have hf0 := hout v hvB
      simp only [hf0, if_true]
      refine ih (i + 1) s T hd' (by omega) ?_
      have hk2 := h.kle
      exact
        { kle := by omega, len := h.len, zero := h.zero, mono := h.mono
          cands := by
            intro l hl
            obtain ⟨p, x, a, b, c⟩ := h.cands l hl
            exact ⟨p, x, a, b, by omega⟩
          complete := by
            intro l Y hl hc
            obtain ⟨l', rfl⟩ : ∃ l', l = l' + 1 := ⟨l - 1, by omega⟩
            obtain ⟨x, y, h1, h2, h3, h4, h5⟩ := hc
            rcases Nat.lt_or_ge x (i + 1) with hx | hx
            · exact h.complete (l' + 1) Y hl ⟨x, y, h1, by omega, h3, h4, h5⟩
            · have hxe : x = i + 1 := by omega
              subst hxe
              have hmem := (match_iff_ysOf A B i v hAv y).1 h4
              rw [List.mem_map] at hmem
              obtain ⟨z, hz, _⟩ := hmem
              rw [mem_ysOf] at hz
              exact absurd (List.mem_of_getElem? hz.2) hvB }

/-- `stone` ends within bounds with a chain of matches, and no chain is longer. -/
theorem stone_spec' (A B : List Int) (b : List Int) (f : Int → Int)
    (hin : ∀ v, v ∈ B → 1 ≤ f v ∧ ClassAt b (f v).toNat (ysOf B v) ∧ ysOf B v ≠ [])
    (hout : ∀ v, v ∉ B → f v = 0) (c : List Nat) (hc : c.length = A.length + 2) :
    ∃ s p x y, stone (A.map f) b (c) = some s ∧
      s.c[s.k]? = some p ∧ CandOk (Match A B) s.cl p s.k x y ∧
      (∀ l Y, Chain (Match A B) l A.length Y → l ≤ s.k) := by
  obtain ⟨s, T, e, h⟩ := stoneLoop_spec A B b f hin hout A 0
    ⟨c.set 0 0, [⟨0, 0, 0⟩], 0⟩ (fun _ => 0) rfl (by omega)
    { kle := Nat.le_refl _, len := by simp [hc], zero := rfl, mono := by intro l hl; simp at hl
      cands := by
        intro l hl
        have : l = 0 := by simpa using hl
        subst this
        exact ⟨0, 0, by rw [List.getElem?_set_self (by omega)], .root 0 ⟨0, 0, 0⟩ rfl rfl, Nat.le_refl _⟩
      complete := by
        intro l Y hl hc
        obtain ⟨l', rfl⟩ : ∃ l', l = l' + 1 := ⟨l - 1, by omega⟩
        obtain ⟨x, y, h1, h2, _⟩ := hc
        omega }
  obtain ⟨p, x, hp, hok, _⟩ := h.cands s.k (Nat.le_refl _)
  refine ⟨s, p, x, T s.k, ?_, hp, hok, ?_⟩
  · rw [stone, put_ok _ _ _ (by omega), Option.bind_some]; exact e
  · intro l Y hc
    by_cases h0 : l = 0
    · omega
    · exact (h.complete l Y (by omega) hc).1

/-- The same for memory filled with one value. -/
theorem stone_spec (A B : List Int) (b : List Int) (f : Int → Int)
    (hin : ∀ v, v ∈ B → 1 ≤ f v ∧ ClassAt b (f v).toNat (ysOf B v) ∧ ysOf B v ≠ [])
    (hout : ∀ v, v ∉ B → f v = 0) (junk : Nat) :
    ∃ s p x y, stone (A.map f) b (List.replicate (A.length + 2) junk) = some s ∧
      s.c[s.k]? = some p ∧ CandOk (Match A B) s.cl p s.k x y ∧
      (∀ l Y, Chain (Match A B) l A.length Y → l ≤ s.k) :=
  stone_spec' A B b f hin hout _ (by simp)

end Ohcount.Diff
