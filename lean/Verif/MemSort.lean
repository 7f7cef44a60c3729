import Verif.MemCounts
import Verif.Cli

/-!
The two sort functions of the command line tool in memory.
-/

namespace Ohcount.Mem
open Ohcount.Cli

/-! ### The code -/

/-- `p->loc = q;` -/
def setItemPtr (p q : Ptr) : M Unit := do
  let n ← getNode p
  setNode p { n with item := q }

/-- The inner loop of the sort functions, src/ohcount.c:131-135 and 188-192; `best` is `min` or `max`. -/
def findFrom (better : Loc → Loc → Bool) (best iter2 : Ptr) : M Ptr := do
  if iter2 = 0 then pure best else
    let a ← getNode iter2
    let v ← getItem locEntry a.item
    let b ← getNode best
    let w ← getItem locEntry b.item
    findFrom better (if better v w then iter2 else best) a.next
partial_fixpoint

/-- Lines 137-139 and 194-196 of src/ohcount.c. -/
def swapItems (iter best : Ptr) : M Unit := do
  let a ← getNode iter
  let b ← getNode best
  setItemPtr iter b.item
  setItemPtr best a.item

/-- The outer loop, src/ohcount.c:128-142 and 185-199. -/
def sortNodes (better : Loc → Loc → Bool) (iter : Ptr) : M Unit := do
  if iter = 0 then pure () else
    let it ← getNode iter
    let best ← findFrom better iter it.next
    onlyIf (iter ≠ best) (swapItems iter best)
    let it ← getNode iter
    sortNodes better it.next
partial_fixpoint

/-- `sort_loc_list_by_language`, src/ohcount.c:126-143, and `sort_loc_list_by_code`, 183-200. -/
def listSort (better : Loc → Loc → Bool) (list : Ptr) : M Unit := do
  let l ← getNode list
  sortNodes better l.head

/-! ### Nodes by their number -/

theorem split_at {α : Type} {l : List α} {i : Nat} {x : α} (h : l[i]? = some x) : l = l.take i ++ x :: l.drop (i + 1) ∧ (l.take i).length = i := by
  obtain ⟨hi, rfl⟩ := List.getElem?_eq_some_iff.mp h
  exact ⟨by simp, by simp; omega⟩

theorem getAt_does (p : Ptr) {xs : List (Ptr × Ptr)} (ls : List String) {i : Nat} {x : Ptr × Ptr} (hx : xs[i]? = some x) :
    Triple (getNode x.1) (Spine p xs ls) (fun n h => (n.item = x.2 ∧ n.next = headPtr (xs.drop (i + 1))) ∧ Spine p xs ls h) := by
  have t := getNth_does p (xs.take i) x (xs.drop (i + 1)) ls
  rw [← (split_at hx).1] at t
  exact t.post fun n h e => ⟨⟨e.1.1, e.1.2.1⟩, e.2⟩

theorem itemAt_does {V : Type} {E : Entry V} {xs : List (Ptr × Ptr)} {vs : List V} {i : Nat} {x : Ptr × Ptr} {v : V} (hx : xs[i]? = some x) (hv : vs[i]? = some v) :
    Does (getItem E x.2) (Cells E xs vs) v (Cells E xs vs) := by
  have e : Cells E xs vs = cell x.2 (E.cell v) ⋆ Cells E (xs.take i) (vs.take i) ⋆ Cells E (xs.drop (i + 1)) (vs.drop (i + 1)) := by
    conv => lhs; rw [(split_at hx).1, (split_at hv).1]
    rw [Cells.append ((split_at hx).2.trans (split_at hv).2.symm)]
    show _ ⋆ cell x.2 (E.cell v) ⋆ _ = _
    ac_rfl
  rw [e]
  exact Does.frame (getItem_does E x.2 v) _

theorem Chain.setItem {m : Mem} {x : Ptr × Ptr} {n : Node} {q : Ptr} (hn : m x.1 = some (.node n)) : ∀ {xs : List (Ptr × Ptr)} {p : Ptr} {i : Nat}, Chain m p xs → (xs.map (·.1)).Nodup →
    xs[i]? = some x → Chain (put m x.1 (some (.node { n with item := q }))) p (xs.set i (x.1, q))
  | [], _, _, _, _, h => by cases h
  | y :: xs, p, 0, hc, hd, h => by
    injection h with h
    subst h
    obtain ⟨h1, k, h2, h3, h4⟩ := hc
    rw [List.map_cons, List.nodup_cons] at hd
    rw [hn] at h2
    injection h2 with h2
    injection h2 with h2
    subst h2
    refine ⟨h1, { n with item := q }, put_same .., rfl, h4.congr fun a ha k hk => ⟨k, ?_, rfl, rfl⟩⟩
    rw [put_other (show a ≠ y.1 from fun e => hd.1 (by rw [← e]; exact ha))]
    exact hk
  | y :: xs, p, i + 1, hc, hd, h => by
    obtain ⟨h1, k, h2, h3, h4⟩ := hc
    rw [List.map_cons, List.nodup_cons] at hd
    have hne : y.1 ≠ x.1 := fun e => hd.1 (by rw [e]; exact List.mem_map_of_mem (f := (·.1)) (List.mem_of_getElem? (show xs[i]? = some x from h)))
    exact ⟨h1, k, by rw [put_other hne]; exact h2, h3, Chain.setItem hn h4 hd.2 h⟩

theorem map_set_fst {xs : List (Ptr × Ptr)} {i : Nat} {x : Ptr × Ptr} {q : Ptr} (hx : xs[i]? = some x) : (xs.set i (x.1, q)).map (·.1) = xs.map (·.1) := by
  rw [List.map_set]
  refine List.ext_getElem? fun j => ?_
  rw [List.getElem?_set]
  split
  · rename_i e
    subst e
    obtain ⟨hi, e⟩ := List.getElem?_eq_some_iff.mp hx
    simp [hi, e]
  · rfl

theorem last_map : ∀ (l : List (Ptr × Ptr)) (d : Ptr × Ptr), (l.getLastD d).1 = (l.map (·.1)).getLastD d.1
  | [], _ => rfl
  | x :: l, d => by
    rw [List.getLastD_cons, List.map_cons, List.getLastD_cons]
    exact last_map l x

theorem headPtr_map : ∀ xs : List (Ptr × Ptr), headPtr xs = (xs.map (·.1)).headD 0
  | [] => rfl
  | _ :: _ => rfl

theorem setAt_does (p : Ptr) {xs : List (Ptr × Ptr)} (ls : List String) {i : Nat} {x : Ptr × Ptr} (hx : xs[i]? = some x) (q : Ptr) :
    Does (setItemPtr x.1 q) (Spine p xs ls) () (Spine p (xs.set i (x.1, q)) ls) := by
  intro h r d fin s
  have hne : xs ≠ [] := fun e => by rw [e] at hx; cases hx
  obtain ⟨n, hn⟩ := s.alive x.1 (by
    cases xs with
    | nil => exact absurd rfl hne
    | cons y ys => exact List.mem_map_of_mem (f := (·.1)) (List.mem_of_getElem? hx))
  have hr : r x.1 = none := by
    rcases d x.1 with e | e
    · rw [hn] at e; cases e
    · exact e
  have hj : join h r x.1 = some (.node n) := by simp [join, hn]
  have h0 : x.1 ≠ 0 := fun e => by rw [e, fin.1] at hj; cases hj
  have ep : put (join h r) x.1 (some (.node { n with item := q })) = join (put h x.1 (some (.node { n with item := q }))) r := by
    funext a
    by_cases e : a = x.1
    · rw [e, put_same]; simp [join, put_same]
    · rw [put_other e]; simp [join, put_other e]
  refine ⟨(), put h x.1 (some (.node { n with item := q })), ?_, ?_, ?_, rfl, ?_⟩
  · unfold setItemPtr
    rw [bind_run (getNode_run hj), setNode_run hj, ep]
  · intro a
    by_cases e : a = x.1
    · exact .inr (e ▸ hr)
    · rw [put_other e]; exact d a
  · rw [← ep]; exact fin.put h0 _
  · have hm := map_set_fst (q := q) hx
    have hno : nodes p (xs.set i (x.1, q)) = nodes p xs := by
      cases xs with
      | nil => exact absurd rfl hne
      | cons y ys =>
        cases i with
        | zero => exact hm
        | succ i => exact hm
    obtain ⟨s1, s2, s3, s4⟩ := s
    have hd : (xs.map (·.1)).Nodup := by
      cases xs with
      | nil => exact absurd rfl hne
      | cons y ys => exact s2
    refine ⟨?_, by rw [hno]; exact s2, fun a ha => ?_, ?_⟩
    · cases xs with
      | nil => exact absurd rfl hne
      | cons y ys =>
        obtain ⟨a1, a2, k, a3, a4, a5⟩ := s1
        have c := Chain.setItem (q := q) hn a2 hd hx
        have hk : ∃ k', put h x.1 (some (.node { n with item := q })) p = some (.node k') ∧ k'.head = k.head ∧ k'.tail = k.tail := by
          by_cases e : p = x.1
          · rw [e, hn] at a3
            injection a3 with a3
            injection a3 with a3
            exact ⟨_, by rw [e]; exact put_same .., by rw [a3], by rw [a3]⟩
          · exact ⟨k, by rw [put_other e]; exact a3, rfl, rfl⟩
        obtain ⟨k', b1, b2, b3⟩ := hk
        have hl : (((y :: ys).set i (x.1, q)).getLastD (0, 0)).1 = ((y :: ys).getLastD (0, 0)).1 := by rw [last_map, last_map, hm]
        cases i with
        | zero =>
          injection hx with hx
          subst hx
          exact ⟨a1, c, k', b1, b2.trans a4, b3.trans (a5.trans hl.symm)⟩
        | succ i => exact ⟨a1, c, k', b1, b2.trans a4, b3.trans (a5.trans hl.symm)⟩
    · rw [hno]
      by_cases e : a = x.1
      · rw [e]
        cases xs with
        | nil => exact absurd rfl hne
        | cons y ys => exact List.mem_map_of_mem (f := (·.1)) (List.mem_of_getElem? hx)
      · rw [put_other e] at ha
        exact s3 a ha
    · have lic : ∀ a, licOf (put h x.1 (some (.node { n with item := q })) a) = licOf (h a) := fun a => by
        by_cases e : a = x.1
        · rw [e, put_same, hn]; rfl
        · rw [put_other e]
      rw [s4]
      have : ∀ zs : List (Ptr × Ptr), (zs.map fun z => licOf (put h x.1 (some (.node { n with item := q })) z.1)) = (zs.map (·.1)).map fun a => licOf (h a) := fun zs => by
        rw [List.map_map]
        exact List.map_congr_left fun z _ => lic z.1
      rw [this, hm, List.map_map]
      rfl

/-! ### Items in another order -/

def Each {V : Type} (E : Entry V) : List (Ptr × V) → Asn
  | [] => emp
  | x :: l => cell x.1 (E.cell x.2) ⋆ Each E l

theorem Each.perm {V : Type} {E : Entry V} {l l' : List (Ptr × V)} (h : l.Perm l') : Each E l = Each E l' := by
  induction h with
  | nil => rfl
  | cons x _ ih => show _ ⋆ _ = _ ⋆ _; rw [ih]
  | swap x y l =>
    show cell y.1 _ ⋆ cell x.1 _ ⋆ Each E l = cell x.1 _ ⋆ cell y.1 _ ⋆ Each E l
    ac_rfl
  | trans _ _ h1 h2 => exact h1.trans h2

theorem Cells.each {V : Type} {E : Entry V} : ∀ {xs : List (Ptr × Ptr)} {vs : List V}, xs.length = vs.length → Cells E xs vs = Each E ((xs.map (·.2)).zip vs)
  | [], [], _ => rfl
  | x :: xs, v :: vs, h => by
    show _ ⋆ _ = _ ⋆ _
    rw [Cells.each (by simpa using h)]
    rfl
  | [], _ :: _, h => by simp at h
  | _ :: _, [], h => by simp at h

theorem zip_set {α β : Type} : ∀ (l : List α) (r : List β) (i : Nat) (a : α) (b : β), (l.set i a).zip (r.set i b) = (l.zip r).set i (a, b)
  | [], _, _, _, _ => rfl
  | _ :: _, [], _, _, _ => by simp
  | _ :: _, _ :: _, 0, _, _ => rfl
  | _ :: l, _ :: r, i + 1, a, b => by
    show _ :: (l.set i a).zip (r.set i b) = _ :: (l.zip r).set i (a, b)
    rw [zip_set l r i a b]

/-- Two items, and the values that they have, change places. -/
theorem Cells.swap {V : Type} {E : Entry V} {xs : List (Ptr × Ptr)} {vs : List V} {i j : Nat} {x y : Ptr × Ptr} {v w : V} (hl : xs.length = vs.length)
    (hx : xs[i]? = some x) (hy : xs[j]? = some y) (hv : vs[i]? = some v) (hw : vs[j]? = some w) :
    Cells E ((xs.set i (x.1, y.2)).set j (y.1, x.2)) ((vs.set i w).set j v) = Cells E xs vs := by
  rw [Cells.each (by simp [hl]), Cells.each hl, List.map_set, List.map_set]
  dsimp only
  rw [zip_set, zip_set]
  refine Each.perm ?_
  have e1 : ((xs.map (·.2)).zip vs)[i]? = some (x.2, v) := by simp [List.getElem?_zip_eq_some, hx, hv]
  have e2 : ((xs.map (·.2)).zip vs)[j]? = some (y.2, w) := by simp [List.getElem?_zip_eq_some, hy, hw]
  obtain ⟨b1, c1⟩ := List.getElem?_eq_some_iff.mp e1
  obtain ⟨b2, c2⟩ := List.getElem?_eq_some_iff.mp e2
  rw [← c1, ← c2]
  exact List.set_set_perm b1 b2

/-! ### Sorting -/

section
variable (better : Loc → Loc → Bool)

theorem findFrom_does (p : Ptr) (xs : List (Ptr × Ptr)) (ls : List String) (vs : List Loc) (hl : xs.length = vs.length) : ∀ (k i b : Nat) (x : Ptr × Ptr), i + k = xs.length →
    xs[b]? = some x → Triple (findFrom better x.1 (headPtr (xs.drop i))) (Spine p xs ls ⋆ Cells locEntry xs vs)
      (fun r h => (∃ y, xs[findBest better vs k i b]? = some y ∧ r = y.1) ∧ (Spine p xs ls ⋆ Cells locEntry xs vs) h)
  | 0, i, b, x, hi, hx => by
    rw [findFrom, show xs.drop i = [] from List.drop_eq_nil_of_le (by omega), show headPtr [] = 0 from rfl, if_pos rfl]
    exact Triple.pure fun h e => ⟨⟨x, hx, rfl⟩, e⟩
  | k + 1, i, b, x, hi, hx => by
    obtain ⟨z, hz⟩ : ∃ z, xs[i]? = some z := ⟨xs[i], by simp⟩
    obtain ⟨v, hv⟩ : ∃ v, vs[i]? = some v := ⟨vs[i]'(by omega), by simp⟩
    obtain ⟨w, hw⟩ : ∃ w, vs[b]? = some w := by
      obtain ⟨hb, _⟩ := List.getElem?_eq_some_iff.mp hx
      exact ⟨vs[b]'(by omega), by simp⟩
    have hd : headPtr (xs.drop i) = z.1 := by
      rw [List.drop_eq_getElem_cons (by omega)]
      obtain ⟨_, e⟩ := List.getElem?_eq_some_iff.mp hz
      exact congrArg Prod.fst e
    refine Triple.know (φ := z.1 ≠ 0) (star_ne fun h s h0 => ?_) fun hz0 => ?_
    · rw [(split_at hz).1] at s
      exact s.ne h0
    rw [findFrom, hd, if_neg hz0]
    refine Triple.stepThen rfl (getAt_does p ls hz) fun n hn => ?_
    rw [hn.1]
    refine Does.step (star_comm ..) (itemAt_does hz hv) ?_
    refine Triple.stepThen (star_comm ..) (getAt_does p ls hx) fun m hm => ?_
    rw [hm.1]
    refine Does.step (star_comm ..) (itemAt_does hx hw) ?_
    rw [hn.2, star_comm]
    unfold findBest
    rw [hv, hw]
    dsimp only
    by_cases hb : better v w = true
    · rw [if_pos hb, if_pos hb]
      exact findFrom_does p xs ls vs hl k (i + 1) i z (by omega) hz
    · rw [if_neg hb, if_neg hb]
      exact findFrom_does p xs ls vs hl k (i + 1) b x (by omega) hx

theorem sortNodes_does (p : Ptr) (ls : List String) : ∀ (k i : Nat) (xs : List (Ptr × Ptr)) (vs : List Loc), xs.length = vs.length → i + k = xs.length →
    Does (sortNodes better (headPtr (xs.drop i))) (Spine p xs ls ⋆ Cells locEntry xs vs) () (Lst locEntry p (sortFrom better k i vs))
  | 0, i, xs, vs, hl, hi => by
    rw [sortNodes, show xs.drop i = [] from List.drop_eq_nil_of_le (by omega), show headPtr [] = 0 from rfl, if_pos rfl]
    exact Triple.pure fun h e => ⟨rfl, Lst.unsplit h e⟩
  | k + 1, i, xs, vs, hl, hi => by
    obtain ⟨z, hz⟩ : ∃ z, xs[i]? = some z := ⟨xs[i], by simp⟩
    obtain ⟨v, hv⟩ : ∃ v, vs[i]? = some v := ⟨vs[i]'(by omega), by simp⟩
    have hd : headPtr (xs.drop i) = z.1 := by
      rw [List.drop_eq_getElem_cons (by omega)]
      obtain ⟨_, e⟩ := List.getElem?_eq_some_iff.mp hz
      exact congrArg Prod.fst e
    refine Triple.know (φ := z.1 ≠ 0 ∧ (xs.map (·.1)).Nodup) (star_ne fun h s h0 => ⟨?_, ?_⟩) fun hk => ?_
    · rw [(split_at hz).1] at s
      exact s.ne h0
    · cases xs with
      | nil => cases hz
      | cons _ _ => exact s.2.1
    obtain ⟨hz0, hdup⟩ := hk
    rw [sortNodes, hd, if_neg hz0]
    refine Triple.stepThen rfl (getAt_does p ls hz) fun n hn => ?_
    rw [hn.2]
    refine (findFrom_does better p xs ls vs hl k (i + 1) i z (by omega) hz).then fun r hr => ?_
    obtain ⟨y, hy, rfl⟩ := hr
    have hk' : vs.length - (i + 1) = k := by omega
    unfold sortFrom
    rw [hk']
    generalize hj : findBest better vs k (i + 1) i = j at hy
    obtain ⟨w, hw⟩ : ∃ w, vs[j]? = some w := by
      obtain ⟨hb, _⟩ := List.getElem?_eq_some_iff.mp hy
      exact ⟨vs[j]'(by omega), by simp⟩
    have hsw : swapLoc vs i j = if i ≠ j then (vs.set i w).set j v else vs := by
      unfold swapLoc
      rw [hv, hw]
    by_cases hij : i = j
    · subst hij
      rw [hz] at hy
      injection hy with hy
      subst hy
      rw [onlyIf, if_neg (fun h => h rfl), hsw, if_neg (fun h => h rfl)]
      refine Does.bind (v := ()) (Q := Spine p xs ls ⋆ Cells locEntry xs vs) (Does.pure _ _) ?_
      refine Triple.stepThen rfl (getAt_does p ls hz) fun n hn => ?_
      rw [hn.2]
      exact sortNodes_does p ls k (i + 1) xs vs hl (by omega)
    · have hzy : z.1 ≠ y.1 := fun e => hij (by
        have h1 : (xs.map (·.1))[i]? = some z.1 := by simp [hz]
        have h2 : (xs.map (·.1))[j]? = some z.1 := by simp [hy, e]
        obtain ⟨c1, d1⟩ := List.getElem?_eq_some_iff.mp h1
        obtain ⟨c2, d2⟩ := List.getElem?_eq_some_iff.mp h2
        exact (List.getElem?_inj c1 hdup).mp (h1.trans h2.symm))
      rw [onlyIf, if_pos hzy, hsw, if_pos hij]
      have hy' : (xs.set i (z.1, y.2))[j]? = some y := by rw [List.getElem?_set_ne hij]; exact hy
      have hz' : ((xs.set i (z.1, y.2)).set j (y.1, z.2))[i]? = some (z.1, y.2) := by
        rw [List.getElem?_set_ne (Ne.symm hij), List.getElem?_set_self (List.getElem?_eq_some_iff.mp hz).1]
      refine Does.bind (v := ()) (Q := Spine p ((xs.set i (z.1, y.2)).set j (y.1, z.2)) ls ⋆ Cells locEntry ((xs.set i (z.1, y.2)).set j (y.1, z.2)) ((vs.set i w).set j v)) ?_ ?_
      · rw [Cells.swap hl hz hy hv hw]
        refine Does.frame ?_ _
        unfold swapItems
        refine (getAt_does p ls hz).then fun a ha => ?_
        refine (getAt_does p ls hy).then fun b hb => ?_
        rw [ha.1, hb.1]
        exact (setAt_does p ls hz y.2).bind (setAt_does p ls hy' z.2)
      · refine Triple.stepThen rfl (getAt_does (x := (z.1, y.2)) p ls hz') fun n hn => ?_
        rw [hn.2]
        exact sortNodes_does p ls k (i + 1) _ _ (by simp [hl]) (by simp; omega)

/-- A sort function sorts the list. -/
theorem listSort_does (p : Ptr) (vs : List Loc) : Does (listSort better p) (Lst locEntry p vs) () (Lst locEntry p (sortFrom better vs.length 0 vs)) := by
  refine Triple.pre (P' := ex fun xs => ex fun ls => Spine p xs ls ⋆ Cells locEntry xs vs) ?_ Lst.split
  refine Triple.ex fun xs => Triple.ex fun ls => ?_
  refine Triple.know (φ := xs.length = vs.length) (star_ne' fun h c _ => c.length) fun hl => ?_
  unfold listSort
  refine Triple.stepThen rfl (getHead_does p xs ls) fun n hn => ?_
  rw [hn]
  exact sortNodes_does better p ls vs.length 0 xs vs hl (by omega)

end

end Ohcount.Mem
