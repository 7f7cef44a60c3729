import Verif.DiffWords
import Verif.DiffProps
/-
The diff in memory computes what the diff of `Diff.lean` computes, and leaves the memory as it was.
-/

namespace Ohcount.DiffWords

open Ohcount.Diff Ohcount.DiffProps

/-! ### Blocks -/

/-- The heap is `h0` with the blocks of the list, which are not in `h0`. -/
structure Own (h0 h : Heap) (L : List (Ptr × Blk)) : Prop where
  get : ∀ x ∈ L, h x.1 = some x.2
  rest : ∀ p, p ∉ L.map Prod.fst → h p = h0 p
  nodup : (L.map Prod.fst).Nodup
  fresh : ∀ p ∈ L.map Prod.fst, h0 p = none
  fin : Finite h0

theorem Own.start {h : Heap} (hf : Finite h) : Own h h [] := ⟨by simp, fun _ _ => rfl, by simp, by simp, hf⟩

theorem Own.finite {h0 h : Heap} {L : List (Ptr × Blk)} (o : Own h0 h L) : Finite h := by
  obtain ⟨used, hu⟩ := o.fin
  refine ⟨L.map Prod.fst ++ used, fun a ha => ?_⟩
  rw [List.mem_append]
  by_cases hm : a ∈ L.map Prod.fst
  · exact .inl hm
  · exact .inr (hu a (by rwa [← o.rest a hm]))

theorem Own.done {h0 h : Heap} (o : Own h0 h []) : h = h0 := funext fun p => o.rest p (by simp)

theorem Own.perm {h0 h : Heap} {L L' : List (Ptr × Blk)} (o : Own h0 h L) (hp : L.Perm L') : Own h0 h L' :=
  have hm := hp.map Prod.fst
  ⟨fun x hx => o.get x (hp.mem_iff.2 hx), fun p hx => o.rest p (fun g => hx (hm.mem_iff.1 g)), hm.nodup_iff.1 o.nodup,
    fun p hx => o.fresh p (hm.mem_iff.2 hx), o.fin⟩

theorem Own.malloc {al : Alloc} (ok : al.Ok) {h0 h : Heap} {L : List (Ptr × Blk)} (o : Own h0 h L) (b : Blk) :
    Own h0 (set h (al.addr h) (some b)) ((al.addr h, b) :: L) := by
  have hn : al.addr h ∉ L.map Prod.fst := by
    intro hm
    obtain ⟨x, hx, e⟩ := List.mem_map.1 hm
    have := o.get x hx
    rw [e, ok h o.finite] at this
    cases this
  refine ⟨?_, ?_, ?_, ?_, o.fin⟩
  · intro x hx
    rcases List.mem_cons.1 hx with rfl | hx
    · simp [set]
    · have : x.1 ≠ al.addr h := fun e => hn (List.mem_map.2 ⟨x, hx, e⟩)
      simp only [set, this, if_false]
      exact o.get x hx
  · intro p hp
    simp only [List.map_cons, List.mem_cons, not_or] at hp
    simp only [set, hp.1, if_false]
    exact o.rest p hp.2
  · exact List.nodup_cons.2 ⟨hn, o.nodup⟩
  · intro p hp
    rcases List.mem_cons.1 hp with rfl | hp
    · rw [← o.rest _ hn]; exact ok h o.finite
    · exact o.fresh p hp

theorem Own.free {h0 h : Heap} {p : Ptr} {b : Blk} {L : List (Ptr × Blk)} (o : Own h0 h ((p, b) :: L)) :
    Own h0 (set h p none) L := by
  have hn := (List.nodup_cons.1 o.nodup).1
  refine ⟨?_, ?_, (List.nodup_cons.1 o.nodup).2, fun q hq => o.fresh q (List.mem_cons_of_mem _ hq), o.fin⟩
  · intro x hx
    have : x.1 ≠ p := fun e => hn (List.mem_map.2 ⟨x, hx, e⟩)
    simp only [set, this, if_false]
    exact o.get x (List.mem_cons_of_mem _ hx)
  · intro q hq
    by_cases e : q = p
    · subst e
      simp only [set, if_true]
      exact (o.fresh q (by simp)).symm
    · simp only [set, e, if_false]
      refine o.rest q ?_
      simp only [List.map_cons, List.mem_cons, not_or]
      exact ⟨e, hq⟩

theorem Own.free_eq {h0 h : Heap} {p : Ptr} {b : Blk} {L : List (Ptr × Blk)} (o : Own h0 h ((p, b) :: L)) :
    DiffWords.free p h = some (set h p none) := by
  have := o.get (p, b) (by simp)
  simp only at this
  rw [DiffWords.free, this]
  rfl

theorem Own.put {h0 h : Heap} {p : Ptr} {b b' : Blk} {L : List (Ptr × Blk)} (o : Own h0 h ((p, b) :: L)) :
    Own h0 (set h p (some b')) ((p, b') :: L) := by
  have hn := (List.nodup_cons.1 o.nodup).1
  refine ⟨?_, ?_, o.nodup, o.fresh, o.fin⟩
  · intro x hx
    rcases List.mem_cons.1 hx with rfl | hx
    · simp [set]
    · have : x.1 ≠ p := fun e => hn (List.mem_map.2 ⟨x, hx, e⟩)
      simp only [set, this, if_false]
      exact o.get x (List.mem_cons_of_mem _ hx)
  · intro q hq
    have hq' := hq
    simp only [List.map_cons, List.mem_cons, not_or] at hq'
    simp only [set, hq'.1, if_false]
    exact o.rest q hq

theorem Own.load {h0 h : Heap} {p : Ptr} {w : List Int} {L : List (Ptr × Blk)} (o : Own h0 h L) (hm : (p, Blk.words w) ∈ L) :
    load h p = some w := by
  rw [DiffWords.load, o.get _ hm]

theorem Own.realloc {al : Alloc} (ok : al.Ok) {h0 h : Heap} {p : Ptr} {w : List Int} {L : List (Ptr × Blk)}
    (o : Own h0 h ((p, .words w) :: L)) (n : Nat) :
    ∃ h' q z, realloc al p n h = some (h', q) ∧ z.length = n - w.length ∧ Own h0 h' ((q, .words (w.take n ++ z)) :: L) := by
  refine ⟨_, _, (List.range (n - w.length)).map (al.int (set h p none)), ?_, by simp, o.free.malloc ok _⟩
  rw [DiffWords.realloc, o.get (p, .words w) (by simp)]

/-! ### prepare -/

/-- The block holds lines with these values (from line 1 on), and room for two more. -/
structure Vals (w vs : List Int) : Prop where
  len : w.length = 2 * (vs.length + 3)
  val : ∀ k v, vs[k]? = some v → w[2 * (k + 1) + 1]? = some v

theorem readLines_spec {al : Alloc} (ok : al.Ok) {h0 : Heap} {L : List (Ptr × Blk)} : ∀ (ls : List Bytes) (vs w : List Int) (p : Ptr) (h : Heap),
    Own h0 h ((p, .words w) :: L) → Vals w vs →
    ∃ h' q w', readLines al ls vs.length p h = some (h', q, vs.length + ls.length) ∧ Own h0 h' ((q, .words w') :: L) ∧
      Vals w' (vs ++ ls.map lineHash)
  | [], vs, w, p, h, o, hv => ⟨h, p, w, rfl, o, by simpa using hv⟩
  | l :: ls, vs, w, p, h, o, hv => by
    obtain ⟨h1, q, z, e, hz, o1⟩ := o.realloc ok (2 * (vs.length + 1 + 3))
    have hl := hv.len
    have htake : w.take (2 * (vs.length + 1 + 3)) = w := List.take_of_length_le (by omega)
    rw [htake] at o1
    rw [readLines, e, Option.bind_some]
    dsimp only
    rw [o1.load List.mem_cons_self, Option.bind_some, put_ok _ _ _ (by simp; omega), Option.bind_some]
    obtain ⟨h', q', w', e', o', hv'⟩ := readLines_spec ok ls (vs ++ [lineHash l]) _ q _ (o1.put (b' := .words ((w ++ z).set (2 * (vs.length + 1) + 1) (lineHash l)))) (by
      refine ⟨by simp; omega, ?_⟩
      intro k v hk
      rw [List.getElem?_append] at hk
      split at hk
      · rw [List.getElem?_set_ne (by omega), List.getElem?_append_left (by omega)]
        exact hv.val k v hk
      · have : k = vs.length := by
          have := (List.getElem?_eq_some_iff.1 hk).1
          simp at this; omega
        subst this
        simp at hk
        rw [List.getElem?_set_self (by simp; omega), hk])
    refine ⟨h', q', w', ?_, o', by simpa using hv'⟩
    simp only [List.length_append, List.length_cons, List.length_nil] at e'
    rw [e', List.length_cons]
    congr 3
    omega

theorem prepare_spec {al : Alloc} (ok : al.Ok) {h0 h : Heap} {L : List (Ptr × Blk)} (o : Own h0 h L) (buf : Bytes) :
    ∃ h' q w', prepare al buf h = some (h', q, (Diff.prepare buf).length) ∧ Own h0 h' ((q, .words w') :: L) ∧
      Vals w' (Diff.prepare buf) := by
  obtain ⟨h', q, w', e, o', hv⟩ := readLines_spec ok (tokens buf) [] _ _ _ (o.malloc ok (.words ((List.range (2 * 3)).map (al.int h))))
    ⟨by simp, by simp⟩
  refine ⟨h', q, w', ?_, o', by simpa [Diff.prepare] using hv⟩
  rw [prepare, malloc]
  simpa [Diff.prepare] using e

/-! ### prune -/

theorem prefLoop_spec {w0 w1 v0 v1 : List Int} (h0 : Vals w0 v0) (h1 : Vals w1 v1) : ∀ (fuel i : Nat), v0.length < fuel + i → i ≤ v0.length →
    prefLoop w0 w1 v0.length v1.length fuel i = some (i + prefLen (v0.drop i) (v1.drop i))
  | 0, i, hf, hi => by omega
  | fuel + 1, i, hf, hi => by
    rw [prefLoop]
    by_cases hb : i < v0.length ∧ i < v1.length
    · rw [if_pos hb, h0.val i v0[i] (List.getElem?_eq_getElem hb.1), h1.val i v1[i] (List.getElem?_eq_getElem hb.2),
        List.drop_eq_getElem_cons hb.1, List.drop_eq_getElem_cons hb.2]
      dsimp only
      rw [prefLen]
      by_cases he : v0[i] = v1[i]
      · rw [if_pos he, if_pos he, prefLoop_spec h0 h1 fuel (i + 1) (by omega) (by omega)]
        congr 1; omega
      · rw [if_neg he, if_neg he]; rfl
    · rw [if_neg hb]
      congr 1
      rcases Nat.lt_or_ge i v0.length with h | h
      · rw [List.drop_eq_nil_of_le (as := v1) (by omega)]
        cases v0.drop i <;> rfl
      · rw [List.drop_eq_nil_of_le (as := v0) h]; rfl

theorem suffLoop_spec {w0 w1 v0 v1 : List Int} (h0 : Vals w0 v0) (h1 : Vals w1 v1) (p : Nat) (hp0 : p ≤ v0.length) (hp1 : p ≤ v1.length) : ∀ (fuel i : Nat),
    v0.length < fuel + i → i ≤ v0.length - p →
    suffLoop w0 w1 v0.length v1.length p fuel i =
      some (i + prefLen ((v0.drop p).reverse.drop i) ((v1.drop p).reverse.drop i))
  | 0, i, hf, hi => by omega
  | fuel + 1, i, hf, hi => by
    rw [suffLoop]
    by_cases hb : i < v0.length - p ∧ i < v1.length - p
    · have e0 : w0[2 * (v0.length - i) + 1]? = some v0[v0.length - i - 1] := by
        have := h0.val (v0.length - i - 1) _ (List.getElem?_eq_getElem (by omega))
        rwa [show v0.length - i - 1 + 1 = v0.length - i by omega] at this
      have e1 : w1[2 * (v1.length - i) + 1]? = some v1[v1.length - i - 1] := by
        have := h1.val (v1.length - i - 1) _ (List.getElem?_eq_getElem (by omega))
        rwa [show v1.length - i - 1 + 1 = v1.length - i by omega] at this
      have r0 : (v0.drop p).reverse.drop i = v0[v0.length - i - 1] :: (v0.drop p).reverse.drop (i + 1) := by
        rw [List.drop_eq_getElem_cons (by simp; omega)]
        congr 1
        simp only [List.getElem_reverse, List.getElem_drop, List.length_drop]
        congr 1; omega
      have r1 : (v1.drop p).reverse.drop i = v1[v1.length - i - 1] :: (v1.drop p).reverse.drop (i + 1) := by
        rw [List.drop_eq_getElem_cons (by simp; omega)]
        congr 1
        simp only [List.getElem_reverse, List.getElem_drop, List.length_drop]
        congr 1; omega
      rw [if_pos hb, e0, e1, r0, r1]
      dsimp only
      rw [prefLen]
      by_cases he : v0[v0.length - i - 1] = v1[v1.length - i - 1]
      · rw [if_pos he, if_pos he, suffLoop_spec h0 h1 p hp0 hp1 fuel (i + 1) (by omega) (by omega)]
        congr 1; omega
      · rw [if_neg he, if_neg he]; rfl
    · rw [if_neg hb]
      congr 1
      rcases Nat.lt_or_ge i (v0.length - p) with h | h
      · rw [List.drop_eq_nil_of_le (as := (v1.drop p).reverse) (by simp; omega)]
        cases (v0.drop p).reverse.drop i <;> rfl
      · rw [List.drop_eq_nil_of_le (as := (v0.drop p).reverse) (by simp; omega)]; rfl

theorem serials_spec (off : Nat) : ∀ (cnt i : Nat) (w : List Int), (cnt ≠ 0 → 2 * (off + i + cnt) ≤ w.length + 1) →
    ∃ w', serials off cnt i w = some w' ∧ w'.length = w.length ∧ (∀ k, i ≤ k → k < i + cnt → w'[2 * (off + k)]? = some (k : Int)) ∧
      (∀ k, (∀ j, i ≤ j → j < i + cnt → k ≠ 2 * (off + j)) → w'[k]? = w[k]?)
  | 0, i, w, _ => ⟨w, rfl, rfl, fun k h1 h2 => by omega, fun _ _ => rfl⟩
  | cnt + 1, i, w, hl => by
    have hl := hl (by omega)
    obtain ⟨w', e, a1, a2, a3⟩ := serials_spec off cnt (i + 1) (w.set (2 * (off + i)) i) (by intro _; simp; omega)
    refine ⟨w', ?_, by simpa using a1, ?_, ?_⟩
    · rw [serials, put_ok _ _ _ (by omega), Option.bind_some]; exact e
    · intro k h1 h2
      rcases Nat.lt_or_ge i k with h | h
      · exact a2 k (by omega) (by omega)
      · obtain rfl : k = i := by omega
        rw [a3 _ (by intro j hj _; omega), List.getElem?_set_self (by omega)]
    · intro k hk
      rw [a3 k (fun j h1 h2 => hk j (by omega) (by omega)), List.getElem?_set_ne]
      exact fun g => hk i (by omega) (by omega) g.symm

/-- The lines of the block from line `off + 1` on. -/
def Region (w : List Int) (off : Nat) (ls : List Line) : Prop :=
  ∀ k l, ls[k]? = some l → w[2 * (off + (k + 1))]? = some (l.serial : Int) ∧ w[2 * (off + (k + 1)) + 1]? = some l.value

theorem Region.of_vals {w w' v : List Int} {off n : Nat} (h : Vals w v) (hn : off + n ≤ v.length)
    (hs : serials off (n + 1) 0 w = some w') :
    Region w' off (number 1 ((v.drop off).take n)) ∧ w'.length = w.length := by
  have hl := h.len
  obtain ⟨w1, e, a1, a2, a3⟩ := serials_spec off (n + 1) 0 w (by intro _; omega)
  rw [hs] at e
  cases e
  refine ⟨?_, a1⟩
  intro k l hk
  have hkn := (List.getElem?_eq_some_iff.1 hk).1
  rw [number_length, List.length_take, List.length_drop] at hkn
  rw [number_getElem?, List.getElem?_take_of_lt (by omega), List.getElem?_drop, List.getElem?_eq_getElem (by omega)] at hk
  simp only [Option.map_some, Option.some.injEq] at hk
  subst hk
  refine ⟨?_, ?_⟩
  · rw [a2 (k + 1) (by omega) (by omega)]
    dsimp only
    congr 1
    omega
  · rw [a3 _ (by intro j _ _; omega), show 2 * (off + (k + 1)) + 1 = 2 * (off + k + 1) + 1 by omega]
    exact h.val (off + k) _ (List.getElem?_eq_getElem (by omega))

/-! ### sort -/

/-- The words outside of the lines `off + 1` to `off + n` are the same. -/
def Outside (off n : Nat) (w w' : List Int) : Prop :=
  w'.length = w.length ∧ ∀ i, i < 2 * (off + 1) ∨ 2 * (off + 1 + n) ≤ i → w'[i]? = w[i]?

theorem Outside.rfl' {off n : Nat} {w : List Int} : Outside off n w w := ⟨rfl, fun _ _ => rfl⟩

theorem Outside.trans {off n : Nat} {w w' w'' : List Int} (h : Outside off n w w') (g : Outside off n w' w'') : Outside off n w w'' :=
  ⟨g.1.trans h.1, fun i hi => (g.2 i hi).trans (h.2 i hi)⟩

/-- Storing a line. -/
theorem region_set {w : List Int} {off : Nat} {ls : List Line} (h : Region w off ls) (i : Nat) (l : Line) (hi : i < ls.length) :
    Region ((w.set (2 * (off + (i + 1))) (l.serial : Int)).set (2 * (off + (i + 1)) + 1) l.value) off (ls.set i l) := by
  obtain ⟨g1, g2⟩ := h i ls[i] (List.getElem?_eq_getElem hi)
  have b1 := (List.getElem?_eq_some_iff.1 g1).1
  have b2 := (List.getElem?_eq_some_iff.1 g2).1
  intro k x hk
  by_cases e : k = i
  · subst e
    rw [List.getElem?_set_self hi] at hk
    cases hk
    exact ⟨by rw [List.getElem?_set_ne (by omega), List.getElem?_set_self b1], by rw [List.getElem?_set_self (by simpa using b2)]⟩
  · rw [List.getElem?_set_ne (Ne.symm e)] at hk
    obtain ⟨q1, q2⟩ := h k x hk
    rw [List.getElem?_set_ne (by omega), List.getElem?_set_ne (by omega), List.getElem?_set_ne (by omega), List.getElem?_set_ne (by omega)]
    exact ⟨q1, q2⟩

theorem outside_set {off n : Nat} (w : List Int) (i : Nat) (hi : i < n) (a b : Int) :
    Outside off n w ((w.set (2 * (off + (i + 1))) a).set (2 * (off + (i + 1)) + 1) b) :=
  ⟨by simp, fun k hk => by rw [List.getElem?_set_ne (by omega), List.getElem?_set_ne (by omega)]⟩

theorem sift_sim (off m : Nat) (hm : 1 ≤ m) : ∀ (fuel : Nat) (ls ls' : List Line) (w : List Int) (ai : Nat), Region w off ls →
    Diff.sift m fuel ls ai = some ls' →
    ∃ w', sift off m fuel w (ai + 1) = some w' ∧ Region w' off ls' ∧ Outside off ls.length w w' ∧ ls'.length = ls.length
  | 0, ls, ls', w, ai, _, hs => by simp [Diff.sift] at hs
  | fuel + 1, ls, ls', w, ai, hr, hs => by
    rw [Diff.sift] at hs
    split at hs
    next x y hx hy =>
      obtain ⟨x1, x2⟩ := hr ai x hx
      obtain ⟨y1, y2⟩ := hr (ai + m) y hy
      have bx := (List.getElem?_eq_some_iff.1 hx).1
      have by' := (List.getElem?_eq_some_iff.1 hy).1
      rw [show ai + m + 1 = ai + 1 + m by omega] at y1 y2
      rw [sift, x1, x2, y1, y2]
      dsimp only
      by_cases ha : after y x = true
      · rw [if_pos ha] at hs
        cases hs
        rw [if_pos (by simp [after] at ha; rcases ha with h | h <;> simp_all)]
        exact ⟨w, rfl, hr, .rfl', rfl⟩
      · rw [if_neg ha] at hs
        rw [if_neg (by simp [after] at ha ⊢; exact ha)]
        have r1 := region_set hr ai y bx
        have r2 := region_set r1 (ai + m) x (by simpa using by')
        rw [show ai + m + 1 = ai + 1 + m by omega] at r2
        have o1 := outside_set (off := off) (n := ls.length) w ai bx (y.serial : Int) y.value
        have o2 := outside_set (off := off) (n := ls.length) ((w.set (2 * (off + (ai + 1))) (y.serial : Int)).set (2 * (off + (ai + 1)) + 1) y.value) (ai + m) by' (x.serial : Int) x.value
        rw [show ai + m + 1 = ai + 1 + m by omega] at o2
        by_cases hle : m ≤ ai
        · rw [if_pos hle] at hs
          obtain ⟨w', e, a1, a2, a3⟩ := sift_sim off m hm fuel _ ls' _ (ai - m) r2 hs
          rw [if_pos (by omega), show ai + 1 - m = ai - m + 1 by omega]
          simp only [List.length_set] at a2 a3
          exact ⟨w', e, a1, (o1.trans o2).trans a2, a3⟩
        · rw [if_neg hle] at hs
          cases hs
          rw [if_neg (by omega)]
          exact ⟨_, rfl, r2, o1.trans o2, by simp⟩
    next => cases hs

theorem sortPass_sim (off m : Nat) (hm : 1 ≤ m) : ∀ (cnt j : Nat) (ls ls' : List Line) (w : List Int), Region w off ls →
    Diff.sortPass m cnt j ls = some ls' →
    ∃ w', sortPass off m cnt (j + 1) w = some w' ∧ Region w' off ls' ∧ Outside off ls.length w w' ∧ ls'.length = ls.length
  | 0, j, ls, ls', w, hr, hs => by
    cases hs
    exact ⟨w, rfl, hr, .rfl', rfl⟩
  | cnt + 1, j, ls, ls', w, hr, hs => by
    rw [Diff.sortPass] at hs
    obtain ⟨l1, e1, hs⟩ := Option.bind_eq_some_iff.1 hs
    obtain ⟨w1, f1, r1, o1, n1⟩ := sift_sim off m hm _ ls l1 w j hr e1
    obtain ⟨w2, f2, r2, o2, n2⟩ := sortPass_sim off m hm cnt (j + 1) l1 ls' w1 r1 hs
    rw [n1] at o2 n2
    exact ⟨w2, by rw [sortPass, f1, Option.bind_some, f2], r2, o1.trans o2, n2⟩

theorem sortLoop_sim (off : Nat) : ∀ (fuel m : Nat) (ls ls' : List Line) (w : List Int), Region w off ls →
    Diff.sortLoop fuel m ls = some ls' →
    ∃ w', sortLoop off ls.length fuel m w = some w' ∧ Region w' off ls' ∧ Outside off ls.length w w' ∧ ls'.length = ls.length
  | 0, m, ls, ls', w, hr, hs => by simp [Diff.sortLoop] at hs
  | fuel + 1, m, ls, ls', w, hr, hs => by
    rw [Diff.sortLoop] at hs
    by_cases hm : m = 0
    · rw [if_pos hm] at hs
      cases hs
      exact ⟨w, by rw [sortLoop, if_pos hm], hr, .rfl', rfl⟩
    · rw [if_neg hm] at hs
      obtain ⟨l1, e1, hs⟩ := Option.bind_eq_some_iff.1 hs
      obtain ⟨w1, f1, r1, o1, n1⟩ := sortPass_sim off m (by omega) _ 0 ls l1 w hr e1
      obtain ⟨w2, f2, r2, o2, n2⟩ := sortLoop_sim off fuel (m / 2) l1 ls' w1 r1 hs
      rw [n1] at o2 n2 f2
      exact ⟨w2, by rw [sortLoop, if_neg hm, f1, Option.bind_some, f2], r2, o1.trans o2, n2⟩

/-- `sort` on words does what `sort` on lines does. -/
theorem sort_sim (off : Nat) (ls ls' : List Line) (w : List Int) (hr : Region w off ls) (hs : Diff.sort ls = some ls') :
    ∃ w', sort off ls.length w = some w' ∧ Region w' off ls' ∧ Outside off ls.length w w' ∧ ls'.length = ls.length :=
  sortLoop_sim off _ _ ls ls' w hr hs

/-! ### equiv -/

/-- Storing the value of a line. -/
theorem region_setVal {w : List Int} {off : Nat} {ls : List Line} (h : Region w off ls) (i : Nat) (l : Line) (hi : ls[i]? = some l) (v : Int) :
    Region (w.set (2 * (off + (i + 1)) + 1) v) off (ls.set i ⟨l.serial, v⟩) := by
  obtain ⟨g1, g2⟩ := h i l hi
  have b2 := (List.getElem?_eq_some_iff.1 g2).1
  have bi := (List.getElem?_eq_some_iff.1 hi).1
  intro k x hk
  by_cases e : k = i
  · subst e
    rw [List.getElem?_set_self bi] at hk
    cases hk
    exact ⟨by rw [List.getElem?_set_ne (by omega)]; exact g1, by rw [List.getElem?_set_self b2]⟩
  · rw [List.getElem?_set_ne (Ne.symm e)] at hk
    obtain ⟨q1, q2⟩ := h k x hk
    rw [List.getElem?_set_ne (by omega), List.getElem?_set_ne (by omega)]
    exact ⟨q1, q2⟩

theorem equiv1_sim (off : Nat) (bs : List Line) (w1 : List Int) (hb : Region w1 off bs) : ∀ (fuel i j : Nat) (as as' : List Line) (w : List Int),
    Region w off as → Diff.equiv1 bs fuel i j as = some as' →
    ∃ w', equiv1 off as.length bs.length w1 fuel (i + 1) (j + 1) w = some w' ∧ Region w' off as' ∧ w'.length = w.length
  | 0, i, j, as, as', w, _, hs => by simp [Diff.equiv1] at hs
  | fuel + 1, i, j, as, as', w, hr, hs => by
    rw [Diff.equiv1] at hs
    rw [equiv1]
    by_cases hi : i < as.length
    · rw [if_pos hi] at hs
      rw [if_pos (by omega)]
      obtain ⟨i1, i2⟩ := hr i as[i] (List.getElem?_eq_getElem hi)
      have bi := (List.getElem?_eq_some_iff.1 i2).1
      by_cases hj : j < bs.length
      · rw [if_pos hj, List.getElem?_eq_getElem hi, List.getElem?_eq_getElem hj] at hs
        rw [if_pos (by omega), i2, (hb j bs[j] (List.getElem?_eq_getElem hj)).2]
        dsimp only at hs ⊢
        by_cases h1 : as[i].value < bs[j].value
        · rw [if_pos h1] at hs ⊢
          obtain ⟨w', e, a1, a2⟩ := equiv1_sim off bs w1 hb fuel (i + 1) j _ as' _ (region_setVal hr i _ (List.getElem?_eq_getElem hi) 0) hs
          rw [List.length_set] at e a2
          exact ⟨w', e, a1, a2⟩
        · rw [if_neg h1] at hs ⊢
          by_cases h2 : as[i].value = bs[j].value
          · rw [if_pos h2] at hs ⊢
            obtain ⟨w', e, a1, a2⟩ := equiv1_sim off bs w1 hb fuel (i + 1) j _ as' _ (region_setVal hr i _ (List.getElem?_eq_getElem hi) ((j + 1 : Nat) : Int)) hs
            rw [List.length_set] at e a2
            exact ⟨w', e, a1, a2⟩
          · rw [if_neg h2] at hs ⊢
            exact equiv1_sim off bs w1 hb fuel i (j + 1) as as' w hr hs
      · rw [if_neg hj, List.getElem?_eq_getElem hi] at hs
        rw [if_neg (by omega), put_ok _ _ _ bi, Option.bind_some]
        obtain ⟨w', e, a1, a2⟩ := equiv1_sim off bs w1 hb fuel (i + 1) j _ as' _ (region_setVal hr i _ (List.getElem?_eq_getElem hi) 0) hs
        rw [List.length_set] at e a2
        exact ⟨w', e, a1, a2⟩
    · rw [if_neg hi] at hs
      cases hs
      rw [if_neg (by omega)]
      exact ⟨w, rfl, hr, rfl⟩

/-- The lines from line `j` of the region on, and the value 0 behind them, are still there. -/
def Live (w : List Int) (off : Nat) (bs : List Line) (j : Nat) : Prop :=
  (∀ k l, bs[k]? = some l → j ≤ k + 1 → w[2 * (off + (k + 1))]? = some (l.serial : Int) ∧ w[2 * (off + (k + 1)) + 1]? = some l.value) ∧
    w[2 * (off + (bs.length + 1)) + 1]? = some 0

/-- The store to element `j` of `member` is to a word of a line before line `j`. -/
theorem Live.set {w : List Int} {off : Nat} {bs : List Line} {j : Nat} (h : Live w off bs j) (h1 : 1 ≤ j) (hj : j ≤ bs.length) (v : Int) :
    Live (w.set j v) off bs j := by
  refine ⟨?_, ?_⟩
  · intro k l hk hle
    rw [List.getElem?_set_ne (by omega), List.getElem?_set_ne (by omega)]
    exact h.1 k l hk hle
  · rw [List.getElem?_set_ne (by omega)]
    exact h.2

theorem Live.mono {w : List Int} {off : Nat} {bs : List Line} {j j' : Nat} (h : Live w off bs j) (hj : j ≤ j') : Live w off bs j' :=
  ⟨fun k l hk hle => h.1 k l hk (by omega), h.2⟩

theorem equivInner_words (off : Nat) (bs : List Line) (h0 : ∀ b, bs.getLast? = some b → b.value ≠ 0) : ∀ (fuel j : Nat) (w : List Int), 1 ≤ j →
    j ≤ bs.length → bs.length - j < fuel → bs.length + 2 ≤ w.length → Live w off bs j → Filled bs j w →
    ∃ j' w', equivInner off fuel j w = some (j', w') ∧ j ≤ j' ∧ j' ≤ bs.length ∧ w'.length = w.length ∧ Live w' off bs j' ∧ Filled bs j' w' ∧
      (j' < bs.length → (bs[j' - 1]?).map Line.value ≠ (bs[j']?).map Line.value)
  | 0, j, w, _, _, hf, _, _, _ => by omega
  | fuel + 1, j, w, h1, hj, hf, hl, hv, hc => by
    have hcur' : bs[j - 1]? = some bs[j - 1] := List.getElem?_eq_getElem (by omega)
    have hcur := (hv.1 (j - 1) _ hcur' (by omega)).2
    rw [show j - 1 + 1 = j by omega] at hcur
    rw [equivInner]
    by_cases hlt : j < bs.length
    · have hnx' : bs[j]? = some bs[j] := List.getElem?_eq_getElem hlt
      obtain ⟨n1, n2⟩ := hv.1 j _ hnx' (by omega)
      rw [n2, hcur]
      dsimp only
      by_cases he : bs[j].value = bs[j - 1].value
      · rw [if_pos he, n1, Option.bind_some, put_ok _ _ _ (by omega), Option.bind_some]
        have hm : memberAt bs j = some (bs[j].serial : Int) := by
          have : j ≠ 0 := by omega
          simp [memberAt, hnx', hcur', he, this]
        obtain ⟨j', w', e, a1, a2, a3, a4, a5, a6⟩ := equivInner_words off bs h0 fuel (j + 1) (w.set (j + 1) bs[j].serial) (by omega) (by omega)
          (by omega) (by simpa using hl) ((hv.mono (by omega)).set (by omega) (by omega) _) (filled_set hc (by omega) hm)
        exact ⟨j', w', e, by omega, a2, by simpa using a3, a4, a5, a6⟩
      · rw [if_neg he]
        refine ⟨j, w, rfl, Nat.le_refl _, hj, rfl, hv, hc, ?_⟩
        intro _
        rw [hnx', hcur']
        simp only [Option.map_some, ne_eq, Option.some.injEq]
        exact fun h => he h.symm
    · obtain rfl : j = bs.length := by omega
      rw [hv.2, hcur]
      dsimp only
      have hne : ¬ (0 : Int) = bs[bs.length - 1].value := by
        intro h
        have : bs.getLast? = some bs[bs.length - 1] := by
          rw [List.getLast?_eq_getElem?]; exact hcur'
        exact h0 _ this h.symm
      rw [if_neg hne]
      exact ⟨bs.length, w, rfl, Nat.le_refl _, Nat.le_refl _, rfl, hv, hc, fun h => by omega⟩

theorem equivOuter_words (off : Nat) (bs : List Line) (h0 : ∀ b, bs.getLast? = some b → b.value ≠ 0) : ∀ (fuel j : Nat) (w : List Int),
    j ≤ bs.length → bs.length - j < fuel → bs.length + 2 ≤ w.length → Live w off bs j → Filled bs j w →
    (0 < j → j < bs.length → (bs[j - 1]?).map Line.value ≠ (bs[j]?).map Line.value) →
    ∃ w', equivOuter off bs.length fuel j w = some w' ∧ w'.length = w.length ∧ Filled bs bs.length w' ∧ w'[bs.length + 1]? = some (-1)
  | 0, j, w, _, hf, _, _, _, _ => by omega
  | fuel + 1, j, w, hj, hf, hl, hv, hc, hd => by
    rw [equivOuter]
    by_cases hlt : j + 1 ≤ bs.length
    · have hb' : bs[j]? = some bs[j] := List.getElem?_eq_getElem (by omega)
      rw [if_pos hlt, (hv.1 j _ hb' (by omega)).1, Option.bind_some, put_ok _ _ _ (by omega), Option.bind_some]
      have hm : memberAt bs j = some (-(bs[j].serial : Int)) := by
        by_cases h0 : j = 0
        · subst h0; simp only [memberAt, hb', Option.map_some, if_true]
        · have := hd (by omega) (by omega)
          rw [hb', Option.map_some] at this
          simp only [memberAt, hb', Option.map_some, h0, if_false, this]
      obtain ⟨j', w1, e, a1, a2, a3, a4, a5, a6⟩ := equivInner_words off bs h0 ((w.set (j + 1) (-(bs[j].serial : Int))).length + 1) (j + 1)
        (w.set (j + 1) (-(bs[j].serial : Int))) (by omega) hlt (by simp; omega) (by simpa using hl)
        ((hv.mono (by omega)).set (by omega) (by omega) _) (filled_set hc (by omega) hm)
      rw [e, Option.bind_some]
      obtain ⟨w2, e2, b1, b2, b3⟩ := equivOuter_words off bs h0 fuel j' w1 a2 (by omega) (by rw [a3]; simpa using hl) a4 a5 (fun _ h => a6 h)
      exact ⟨w2, e2, by rw [b1, a3]; simp, b2, b3⟩
    · obtain rfl : j = bs.length := by omega
      rw [if_neg hlt, put_ok _ _ _ (by omega)]
      refine ⟨_, rfl, by simp, ?_, ?_⟩
      · intro p hp
        rw [List.getElem?_set_ne (by omega)]; exact hc p hp
      · rw [List.getElem?_set_self (by omega)]

/-! ### unsort -/

theorem scatter_sim (off : Nat) (w : List Int) : ∀ (ls : List Line) (i : Nat) (a a' : List Int),
    (∀ k l, ls[k]? = some l → w[2 * (off + (i + k))]? = some (l.serial : Int) ∧ w[2 * (off + (i + k)) + 1]? = some l.value) →
    Diff.unsort ls a = some a' → scatter off w ls.length i a = some a'
  | [], i, a, a', _, hs => hs
  | l :: ls, i, a, a', hr, hs => by
    obtain ⟨g1, g2⟩ := hr 0 l rfl
    rw [Diff.unsort] at hs
    obtain ⟨b, e, hs⟩ := Option.bind_eq_some_iff.1 hs
    rw [List.length_cons, scatter, show i = i + 0 from rfl, g1, g2]
    dsimp only
    rw [if_neg (by omega), Int.toNat_natCast, e, Option.bind_some]
    refine scatter_sim off w ls (i + 1) b a' ?_ hs
    intro k x hk
    have := hr (k + 1) x hk
    rwa [show i + (k + 1) = i + 1 + k by omega] at this

theorem copyBack_spec (a : List Int) : ∀ (cnt i : Nat) (w : List Int), i + cnt ≤ a.length → i + cnt ≤ w.length →
    ∃ w', copyBack a cnt i w = some w' ∧ w'.length = w.length ∧ (∀ k, i ≤ k → k < i + cnt → w'[k]? = a[k]?) ∧ (∀ k, k < i → w'[k]? = w[k]?)
  | 0, i, w, _, _ => ⟨w, rfl, rfl, fun k h1 h2 => by omega, fun _ _ => rfl⟩
  | cnt + 1, i, w, h1, h2 => by
    obtain ⟨w', e, a1, a2, a3⟩ := copyBack_spec a cnt (i + 1) (w.set i a[i]) (by omega) (by simp; omega)
    refine ⟨w', ?_, by simpa using a1, ?_, ?_⟩
    · rw [copyBack, List.getElem?_eq_getElem (by omega), Option.bind_some, put_ok _ _ _ (by omega), Option.bind_some, e]
    · intro k g1 g2
      rcases Nat.lt_or_ge i k with h | h
      · exact a2 k (by omega) (by omega)
      · obtain rfl : k = i := by omega
        rw [a3 k (by omega), List.getElem?_set_self (by omega), List.getElem?_eq_getElem (by omega)]
    · intro k hk
      rw [a3 k (by omega), List.getElem?_set_ne (by omega)]

/-! ### The whole -/

variable {al : Alloc} {h0 : Heap} {L : List (Ptr × Blk)}

/-- The state after `prune`. -/
def St.cut (s : St) (h : Heap) (p q n m : Nat) : St :=
  { s with h := h, pref := p, suff := q, off0 := p, off1 := p, slen0 := n, slen1 := m }

theorem prune_words {s : St} {w0 w1 v0 v1 P A B S : List Int} (o : Own h0 s.h ((s.file1, .words w1) :: (s.file0, .words w0) :: L))
    (l0 : s.len0 = v0.length) (l1 : s.len1 = v1.length) (u0 : Vals w0 v0) (u1 : Vals w1 v1) (e0 : v0 = P ++ A ++ S) (e1 : v1 = P ++ B ++ S)
    (hP : P.length = prefLen v0 v1) (hS : S.length = prefLen (v0.drop (prefLen v0 v1)).reverse (v1.drop (prefLen v0 v1)).reverse) :
    ∃ h w0' w1', prune s = some (s.cut h P.length S.length A.length B.length) ∧
      Own h0 h ((s.file1, .words w1') :: (s.file0, .words w0') :: L) ∧ Region w0' P.length (number 1 A) ∧ Region w1' P.length (number 1 B) ∧
      w0'.length = w0.length ∧ w1'.length = w1.length := by
  have n0 : v0.length = P.length + A.length + S.length := by rw [e0]; simp; omega
  have n1 : v1.length = P.length + B.length + S.length := by rw [e1]; simp; omega
  have hA : (v0.drop P.length).take A.length = A := by
    rw [e0, List.append_assoc, List.drop_left, List.take_left]
  have hB : (v1.drop P.length).take B.length = B := by
    rw [e1, List.append_assoc, List.drop_left, List.take_left]
  have q0 := u0.len
  have q1 := u1.len
  obtain ⟨x0, f0, _⟩ := serials_spec P.length (A.length + 1) 0 w0 (by intro _; omega)
  obtain ⟨x1, f1, _⟩ := serials_spec P.length (B.length + 1) 0 w1 (by intro _; omega)
  obtain ⟨r0, c0⟩ := Region.of_vals (n := A.length) u0 (by omega) f0
  obtain ⟨r1, c1⟩ := Region.of_vals (n := B.length) u1 (by omega) f1
  rw [hA] at r0
  rw [hB] at r1
  rw [← hP] at hS
  refine ⟨_, x0, x1, ?_, ((o.perm (List.Perm.swap _ _ _)).put.perm (List.Perm.swap _ _ _)).put, r0, r1, c0, c1⟩
  rw [prune, o.load (p := s.file0) (List.mem_cons_of_mem _ List.mem_cons_self), Option.bind_some, o.load (p := s.file1) List.mem_cons_self, Option.bind_some, l0, l1,
    prefLoop_spec u0 u1 _ 0 (by omega) (by omega), Option.bind_some, Nat.zero_add, List.drop_zero, List.drop_zero, ← hP,
    suffLoop_spec u0 u1 P.length (by omega) (by omega) _ 0 (by omega) (by omega), Option.bind_some, Nat.zero_add, List.drop_zero, List.drop_zero, ← hS]
  dsimp only
  rw [show v0.length - P.length - S.length = A.length by omega, show v1.length - P.length - S.length = B.length by omega, f0, Option.bind_some, f1, Option.bind_some]
  simp only [St.cut, l0, l1]

theorem equiv_words {s : St} {w0 w1 : List Int} {s0 s1 : List Line} (hm : s.member = s.file1)
    (o : Own h0 s.h ((s.file1, .words w1) :: (s.file0, .words w0) :: L)) (n0 : s.slen0 = s0.length) (n1 : s.slen1 = s1.length) (ho : s.off0 = s.off1)
    (r0 : Region w0 s.off1 s0) (r1 : Region w1 s.off1 s1) (c1 : 2 * (s.off1 + s1.length + 3) ≤ w1.length) (q0 : VSorted s0) (q1 : VSorted s1)
    (hz : ∀ b, s1.getLast? = some b → b.value ≠ 0) :
    ∃ h w0' w1', equiv s = some { s with h := h } ∧ Own h0 h ((s.file1, .words w1') :: (s.file0, .words w0') :: L) ∧
      Region w0' s.off1 (s0.map fun l => ⟨l.serial, firstPos s1 l.value⟩) ∧ w0'.length = w0.length ∧ w1'.length = w1.length ∧
      Filled s1 s1.length w1' ∧ w1'[s1.length + 1]? = some (-1) := by
  have e1 := equiv1_spec s1 q1 s0 q0 (s0.length + s1.length + 1) 0 0 (by omega) (by omega) (by omega) (by intros; omega)
  simp only [List.take_zero, List.map_nil, List.nil_append, List.drop_zero] at e1
  obtain ⟨x0, f0, a1, a2⟩ := equiv1_sim s.off1 s1 w1 r1 _ 0 0 s0 _ w0 r0 e1
  have hlive : Live (w1.set (2 * (s.off1 + (s1.length + 1)) + 1) 0) s.off1 s1 0 := by
    refine ⟨?_, ?_⟩
    · intro k l hk _
      have := (List.getElem?_eq_some_iff.1 hk).1
      rw [List.getElem?_set_ne (by omega), List.getElem?_set_ne (by omega)]
      exact r1 k l hk
    · rw [List.getElem?_set_self (by omega)]
  obtain ⟨x1, f1, b1, b2, b3⟩ := equivOuter_words s.off1 s1 hz (s1.length + 1) 0 _ (by omega) (by omega) (by simp; omega) hlive
    (by intro p hp; omega) (by intro h; omega)
  refine ⟨_, x0, x1, ?_, ((o.perm (List.Perm.swap _ _ _)).put.perm (List.Perm.swap _ _ _)).put, a1, a2, by simpa using b1, b2, b3⟩
  rw [equiv, o.load (p := s.file0) (List.mem_cons_of_mem _ List.mem_cons_self), Option.bind_some, hm, o.load (p := s.file1) List.mem_cons_self, Option.bind_some, n0, n1, ho]
  rw [f0, Option.bind_some, put_ok _ _ _ (by omega), Option.bind_some, f1, Option.bind_some]

theorem unsort_words (ok : al.Ok) {s : St} {w : List Int} {A : List Int} {s0 : List Line} {f : Int → Int}
    (o : Own h0 s.h ((s.cls, .words w) :: L)) (n0 : s.slen0 = A.length) (hp : s0.Perm (number 1 A))
    (r0 : Region w s.off0 (s0.map fun l => ⟨l.serial, f l.value⟩)) (c0 : A.length + 2 ≤ w.length) :
    ∃ h w', unsort al s = some { s with h := h } ∧ Own h0 h ((s.cls, .words w') :: L) ∧ w'.length = w.length ∧
      (w'.drop 1).take A.length = A.map f := by
  have o1 := o.malloc ok (.words ((List.range (s.slen0 + 1)).map (al.int s.h)))
  obtain ⟨a, e, ha, hl⟩ := unsort_classes' A s0 hp f ((List.range (s.slen0 + 1)).map (al.int s.h)) (by simp [n0])
  have e' := scatter_sim s.off0 w _ 1 _ _ (by
    intro k l hk
    rw [show 1 + k = k + 1 by omega]
    exact r0 k l hk) e
  rw [List.length_map, hp.length_eq, number_length, ← n0] at e'
  obtain ⟨w', e2, a1, a2, _⟩ := copyBack_spec a A.length 1 w (by omega) (by omega)
  rw [← n0] at e2
  have o2 := ((o1.put (b' := .words a)).perm (List.Perm.swap _ _ _)).put (b' := .words w')
  refine ⟨_, w', ?_, (o2.perm (List.Perm.swap _ _ _)).free, a1, ?_⟩
  rotate_left
  · rw [← ha]
    apply List.ext_getElem?
    intro i
    by_cases hi : i < A.length
    · rw [List.getElem?_take_of_lt hi, List.getElem?_drop, List.getElem?_drop]
      exact a2 (1 + i) (by omega) (by omega)
    · rw [List.getElem?_eq_none (by simp; omega), List.getElem?_eq_none (by simp; omega)]
  · rw [unsort, malloc]
    dsimp only
    rw [o1.load List.mem_cons_self, Option.bind_some, o1.load (List.mem_cons_of_mem _ List.mem_cons_self), Option.bind_some, e', Option.bind_some, e2,
      Option.bind_some, (o2.perm (List.Perm.swap _ _ _)).free_eq]
    rfl

theorem stone_words (ok : al.Ok) {s : St} {a b : List Int} {c : List Nat} {r : Stone} {L : List (Ptr × Blk)}
    (o : Own h0 s.h ((s.clist, .cands []) :: (s.klist, .nats c) :: (s.cls, .words a) :: (s.member, .words b) :: L)) (hc : s.clen = 0)
    (ha : s.slen0 < a.length) (hr : Diff.stone ((a.drop 1).take s.slen0) b c = some r) :
    ∃ h q, stone al s = some ({ s with h := h, clist := q, clen := r.cl.length }, r.k) ∧
      Own h0 h ((q, .cands r.cl) :: (s.klist, .nats r.c) :: (s.cls, .words a) :: (s.member, .words b) :: L) := by
  have o1 := ((o.perm (List.Perm.swap _ _ _)).put (b' := .nats r.c)).perm (List.Perm.swap _ _ _)
  refine ⟨_, _, ?_, o1.free.malloc ok _⟩
  have g1 := o.get (s.clist, .cands []) (by simp)
  have g2 := o.get (s.klist, .nats c) (by simp)
  have g3 := o.get (s.cls, .words a) (by simp)
  have g4 := o.get (s.member, .words b) (by simp)
  simp only at g1 g2 g3 g4
  rw [stone, g1, g2, g3, g4]
  dsimp only
  rw [if_pos ⟨hc, ha⟩, hr, Option.bind_some]

/-- The diff in memory of texts, none of whose lines in the new text has the value 0: the numbers of lines outside of a longest common
subsequence of the values, and the memory as before. -/
theorem calcDiff_words (ok : al.Ok) (old new : Bytes) (s : St) (hfin : Finite s.h) (hz : (0 : Int) ∉ Diff.prepare new) :
    ∃ k s', IsLCS (Diff.prepare old) (Diff.prepare new) k ∧
      calcDiff al old new s = some ((((Diff.prepare new).length : Int) - k, ((Diff.prepare old).length : Int) - k), s') ∧ s'.h = s.h := by
  obtain ⟨h1, p0, w0, e1, o1, u0⟩ := prepare_spec ok (Own.start hfin) old
  obtain ⟨h2, p1, w1, e2, o2, u1⟩ := prepare_spec ok o1 new
  obtain ⟨P, A, B, S, d0, d1, hP, hS⟩ := prune_spec (Diff.prepare old) (Diff.prepare new)
  have hzB : (0 : Int) ∉ B := fun hb => hz (by rw [d1]; simp [hb])
  have n0 : (Diff.prepare old).length = P.length + A.length + S.length := by rw [d0]; simp; omega
  have n1 : (Diff.prepare new).length = P.length + B.length + S.length := by rw [d1]; simp; omega
  have m0 := u0.len
  have m1 := u1.len
  rw [calcDiff, e1]
  simp only [Option.bind_eq_bind, Option.bind_some]
  rw [e2]
  simp only [Option.bind_some]
  generalize hs3 : St.mk h2 p0 p1 (Diff.prepare old).length (Diff.prepare new).length s.off0 s.off1 s.slen0 s.slen1 s.pref s.suff s.cls s.member
    s.klist s.clist 0 s.J = s3
  obtain ⟨h3, x0, x1, e3, o3, r0, r1, c0, c1⟩ := prune_words (s := s3) (w0 := w0) (w1 := w1) (by subst hs3; exact o2) (by subst hs3; rfl) (by subst hs3; rfl) u0 u1 d0 d1 hP hS
  rw [e3]
  subst hs3
  simp only [Option.bind_some, St.cut] at o3 ⊢
  obtain ⟨s0, f0, t0, q0⟩ := sort_sorts (number 1 A) (number_nodup 1 A)
  obtain ⟨s1, f1, t1, q1⟩ := sort_sorts (number 1 B) (number_nodup 1 B)
  obtain ⟨y0, g0, r0, ⟨c0', _⟩, j0⟩ := sort_sim P.length _ _ x0 r0 f0
  obtain ⟨y1, g1, r1, ⟨c1', _⟩, j1⟩ := sort_sim P.length _ _ x1 r1 f1
  rw [number_length] at g0 j0 g1 j1
  rw [o3.load (List.mem_cons_of_mem _ List.mem_cons_self)]
  simp only [Option.bind_some]
  rw [g0]
  simp only [Option.bind_some]
  have o4 := ((o3.perm (List.Perm.swap _ _ _)).put (b' := .words y0)).perm (List.Perm.swap _ _ _)
  rw [o4.load List.mem_cons_self]
  simp only [Option.bind_some]
  rw [g1]
  simp only [Option.bind_some]
  have o5 := o4.put (b' := .words y1)
  have hnz : ∀ b, s1.getLast? = some b → b.value ≠ 0 := by
    intro b hb h0
    have := List.mem_of_getLast? hb
    rw [t1.mem_iff, mem_number, h0] at this
    exact hzB (List.mem_of_getElem? this.2)
  generalize hs6 : St.mk (set (set h3 p0 (some (Blk.words y0))) p1 (some (Blk.words y1))) p0 p1 (Diff.prepare old).length (Diff.prepare new).length
    P.length P.length A.length B.length P.length S.length s.cls p1 s.klist s.clist 0 s.J = s6
  obtain ⟨h6, z0, z1, e6, o6, r6, c6, c7, hf, hend⟩ := equiv_words (s := s6) (w0 := y0) (w1 := y1) (s0 := s0) (s1 := s1) (L := []) (by subst hs6; rfl)
    (by subst hs6; exact o5) (by subst hs6; exact j0.symm) (by subst hs6; exact j1.symm) (by subst hs6; rfl) (by subst hs6; exact r0)
    (by subst hs6; exact r1) (by subst hs6; dsimp only; omega) (VSorted.of_lt q0) (VSorted.of_lt q1) hnz
  rw [e6]
  subst hs6
  simp only [Option.bind_some] at o6 r6 ⊢
  obtain ⟨h7, p7, z7, e7, hz7, o7⟩ := o6.realloc ok (B.length + 2)
  rw [e7]
  simp only [Option.bind_some]
  obtain rfl : z7 = [] := List.eq_nil_of_length_eq_zero (by omega)
  rw [List.append_nil] at o7
  generalize hs8 : St.mk h7 p0 p1 (Diff.prepare old).length (Diff.prepare new).length
    P.length P.length A.length B.length P.length S.length p0 p7 s.klist s.clist 0 s.J = s8
  obtain ⟨h8, w8, e8, o8, c8, hA⟩ := unsort_words (al := al) ok (s := s8) (w := z0) (A := A) (s0 := s0) (f := firstPos s1)
    (by subst hs8; exact o7.perm (List.Perm.swap _ _ _)) (by subst hs8; rfl) t0 (by subst hs8; exact r6) (by omega)
  rw [e8]
  subst hs8
  simp only [Option.bind_some] at o8 ⊢
  obtain ⟨h9, p9, z9, e9, hz9, o9⟩ := o8.realloc ok (A.length + 2)
  rw [e9]
  simp only [Option.bind_some]
  obtain rfl : z9 = [] := List.eq_nil_of_length_eq_zero (by omega)
  rw [List.append_nil] at o9
  have o10 := o9.malloc ok (.nats ((List.range (A.length + 2)).map (al.nat h9)))
  have o11 := o10.malloc ok (.cands [])
  obtain ⟨st, p, x, y, es, hp, hok, hmax⟩ := stone_spec' A B (z1.take (B.length + 2)) (firstPos s1)
    (fun v hv => classAt_of_filled B s1 t1 q1 v hv z1 hf hend)
    (fun v hv => firstPos_absent B s1 t1 v hv) ((List.range (A.length + 2)).map (al.nat h9)) (by simp)
  have hcl : ((w8.take (A.length + 2)).drop 1).take A.length = A.map (firstPos s1) := by
    rw [← hA, List.drop_take, List.take_take, Nat.min_eq_left (by omega)]
  simp only [mallocNats]
  generalize hs12 : St.mk _ p0 p1 (Diff.prepare old).length (Diff.prepare new).length
    P.length P.length A.length B.length P.length S.length p9 p7 (al.addr h9) _ 0 s.J = s12
  obtain ⟨h12, q12, e12, o12⟩ := stone_words (al := al) ok (s := s12) (a := w8.take (A.length + 2)) (b := z1.take (B.length + 2)) (r := st) (L := [])
    (by subst hs12; exact o11) (by subst hs12; rfl) (by subst hs12; simp; omega) (by subst hs12; rw [hcl]; exact es)
  rw [e12]
  subst hs12
  simp only [Option.bind_some] at o12 ⊢
  -- blocks: clist, klist, class, member
  have o13 := o12.perm (L' := (p7, .words (z1.take (B.length + 2))) :: (p9, .words (w8.take (A.length + 2))) :: (q12, .cands st.cl) ::
    (al.addr h9, .nats st.c) :: []) (by
      refine List.Perm.trans (List.Perm.swap _ _ _) ?_
      exact (List.reverse_perm [(p7, Blk.words (z1.take (B.length + 2))), (p9, .words (w8.take (A.length + 2))), (q12, .cands st.cl), (al.addr h9, .nats st.c)]))
  rw [o13.free_eq]
  simp only [Option.bind_some]
  have o14 := o13.free
  rw [o14.free_eq]
  simp only [Option.bind_some, malloc]
  have o15 := o14.free.malloc ok (.words ((List.range ((Diff.prepare old).length + 2)).map (al.int (set (set h12 p7 none) p9 none))))
  obtain ⟨k, hk, hfin⟩ := finish_spec (Diff.prepare old) (Diff.prepare new) P A B S d0 d1 st hok hmax
    (al.int (set (set h12 p7 none) p9 none) ((Diff.prepare old).length + 1))
  obtain ⟨J, hJ, hout⟩ := Option.bind_eq_some_iff.1 hfin
  have hdrop : ((List.range ((Diff.prepare old).length + 2)).map (al.int (set (set h12 p7 none) p9 none))).drop ((Diff.prepare old).length + 1) =
      [al.int (set (set h12 p7 none) p9 none) ((Diff.prepare old).length + 1)] := by
    rw [List.range_succ, List.map_append, List.drop_left' (by simp)]
    rfl
  refine ⟨k, ?_⟩
  generalize set (set h12 p7 none) p9 none = h15 at *
  have g1 := o15.get (q12, .cands st.cl) (by simp)
  have g2 := o15.get (al.addr h9, .nats st.c) (by simp)
  have g3 := o15.get (al.addr h15, .words ((List.range ((Diff.prepare old).length + 2)).map (al.int h15))) (by simp)
  simp only at g1 g2 g3
  simp only [unravel]
  rw [g1, g2, g3]
  dsimp only
  rw [if_pos (by simp), hp, Option.bind_some, hdrop, hJ]
  simp only [Option.bind_some]
  have o16 := (o15.put (b' := .words J)).perm (L' := (q12, .cands st.cl) :: (al.addr h9, .nats st.c) :: (al.addr h15, .words J) :: []) (by
    refine (List.Perm.swap _ _ _).trans ?_
    exact (List.Perm.swap _ _ _).cons _)
  rw [o16.free_eq]
  simp only [Option.bind_some]
  rw [o16.free.free_eq]
  simp only [Option.bind_some, output]
  have o18 := o16.free.free
  rw [o18.load List.mem_cons_self, Option.bind_some, hout]
  simp only [Option.bind_some]
  rw [o18.free_eq]
  exact ⟨_, hk, rfl, o18.free.done⟩

/-! ### C91 -/

/-- Diff in memory: whatever the memory contains, and whatever earlier calls have left in the static variables, a diff ends, reads and
writes only blocks that it has allocated itself and has not yet freed, within their bounds, counts what the diff with separate arrays
counts (`Diff.calcDiff`, C17 to C22), and leaves the memory as it was: nothing is left allocated. -/
def C91_full : Prop := ∀ (al : Alloc) (old new : Bytes) (s : St), al.Ok → Finite s.h →
  ∃ r s', calcDiff al old new s = some (r, s') ∧ s'.h = s.h ∧ ∀ junk, Diff.calcDiff junk old new = some r

/-- Missing: texts with a line of hash value 0. -/
theorem C91_memory_partial (al : Alloc) (old new : Bytes) (s : St) (ok : al.Ok) (hf : Finite s.h) (hz : NoZeroHash new) :
    ∃ r s', calcDiff al old new s = some (r, s') ∧ s'.h = s.h ∧ ∀ junk, Diff.calcDiff junk old new = some r := by
  obtain ⟨k, s', hk, e, he⟩ := calcDiff_words ok old new s hf (zero_notin new hz)
  refine ⟨_, s', e, he, fun junk => ?_⟩
  obtain ⟨k', hk', e'⟩ := diffValues_lcs junk (Diff.prepare old) (Diff.prepare new) (zero_notin new hz)
  rw [Diff.calcDiff, e', hk'.unique hk]

/-- The lines 0, 1, ... up to 99 that are free, otherwise some free address. -/
noncomputable def firstFit (h : Heap) : Ptr :=
  match (List.range 100).find? fun p => (h p).isNone with
  | some p => p
  | none => open Classical in if hf : ∃ p, h p = none then hf.choose else 0

/-- Memory filled with 0. -/
noncomputable def zeros : Alloc := ⟨firstFit, fun _ _ => 0, fun _ _ => 0⟩

theorem zeros_ok : zeros.Ok := by
  intro h ⟨used, hu⟩
  show h (firstFit h) = none
  unfold firstFit
  split
  next p hp =>
    have := List.find?_some hp
    simpa using this
  next =>
    have hex : ∃ p, h p = none := by
      apply Classical.byContradiction
      intro hn
      have hall : ∀ p, p ∈ used := fun p => hu p (fun e => hn ⟨p, e⟩)
      have hb : ∀ (l : List Nat), ∃ n, ∀ x ∈ l, x < n := by
        intro l
        induction l with
        | nil => exact ⟨0, by simp⟩
        | cons a l ih =>
          obtain ⟨n, hn⟩ := ih
          refine ⟨max n (a + 1), ?_⟩
          intro x hx
          rcases List.mem_cons.1 hx with rfl | hx
          · omega
          · have := hn x hx; omega
      obtain ⟨n, hn⟩ := hb used
      exact absurd (hn n (hall n)) (by omega)
    rw [dif_pos hex]
    exact hex.choose_spec

/-- Nothing is allocated; the static variables are 0. -/
def empty : St := ⟨fun _ => none, 0, 0, 0, 0, 0, 0, 0, 0, 0, 0, 0, 0, 0, 0, 0, 0⟩

theorem empty_finite : Finite empty.h := ⟨[], fun _ h => absurd rfl h⟩

/-- Non-vacuous: `a b c` to `a x c d`. -/
example : NoZeroHash [97, 10, 120, 10, 99, 10, 100] ∧ zeros.Ok ∧ Finite empty.h ∧
    (calcDiff zeros [97, 10, 98, 10, 99] [97, 10, 120, 10, 99, 10, 100] empty).map Prod.fst = some (2, 1) :=
  ⟨by unfold NoZeroHash; decide +kernel, zeros_ok, empty_finite, by decide +kernel⟩

/-- Out of bounds in memory filled with 0, for a new text that is one line of hash value 0. -/
theorem C91_negation : ¬ C91_full := by
  intro h
  obtain ⟨r, s', e, _⟩ := h zeros [97] [255] empty zeros_ok empty_finite
  have : (calcDiff zeros [97] [255] empty).isNone = true := by decide +kernel
  rw [e] at this
  cases this

/-- Diffs one after the other: every one counts what it counts alone, and nothing is left allocated. -/
theorem C91_history_partial (al : Alloc) (ok : al.Ok) : ∀ (ts : List (Bytes × Bytes)) (s : St), Finite s.h → (∀ t ∈ ts, NoZeroHash t.2) →
    ∃ rs s', calcDiffs al ts s = some (rs, s') ∧ s'.h = s.h ∧ ∀ junk, ts.map (fun t => Diff.calcDiff junk t.1 t.2) = rs.map some
  | [], s, _, _ => ⟨[], s, rfl, rfl, fun _ => rfl⟩
  | (old, new) :: ts, s, hf, hz => by
    obtain ⟨r, s1, e1, g1, q1⟩ := C91_memory_partial al old new s ok hf (hz (old, new) (by simp))
    obtain ⟨rs, s2, e2, g2, q2⟩ := C91_history_partial al ok ts s1 (by rw [g1]; exact hf) (fun t ht => hz t (by simp [ht]))
    refine ⟨r :: rs, s2, ?_, g2.trans g1, fun junk => ?_⟩
    · rw [calcDiffs, e1]
      simp only [Option.bind_eq_bind, Option.bind_some]
      rw [e2]
      rfl
    · rw [List.map_cons, List.map_cons, q1 junk, q2 junk]

end Ohcount.DiffWords
