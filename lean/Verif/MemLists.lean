import Verif.Mem

/-!
The lists of `Mem.lean`: what they hold, which blocks they consist of, and what each function does to them.
-/

namespace Ohcount.Mem

theorem bind_run {α β : Type} {x : M α} {f : α → M β} {m m' : Mem} {a : α} (h : x m = some (a, m')) : (x >>= f) m = f a m' := by
  show (x m).bind _ = _
  rw [h]; rfl

theorem put_same (m : Mem) (p : Ptr) (c : Option Cell) : put m p c p = c := if_pos rfl

theorem put_other {m : Mem} {p a : Ptr} {c : Option Cell} (h : a ≠ p) : put m p c a = m a := if_neg h

theorem getNode_run {m : Mem} {p : Ptr} {n : Node} (h : m p = some (.node n)) : getNode p m = some (n, m) := by
  unfold getNode; rw [h]

theorem setNode_run {m : Mem} {p : Ptr} {n n' : Node} (h : m p = some (.node n)) : setNode p n' m = some ((), put m p (some (.node n'))) := by
  unfold setNode; rw [h]

theorem getItem_run {V : Type} (E : Entry V) {m : Mem} {p : Ptr} {v : V} (h : m p = some (E.cell v)) : getItem E p m = some (v, m) := by
  unfold getItem; rw [h, Option.bind_some, E.back]

theorem setItem_run {V : Type} (E : Entry V) {m : Mem} {p : Ptr} {v v' : V} (h : m p = some (E.cell v)) :
    setItem E p v' m = some ((), put m p (some (E.cell v'))) := by
  unfold setItem; rw [h, Option.bind_some, E.back]

theorem free_run {m : Mem} {p : Ptr} {c : Cell} (h0 : m 0 = none) (h : m p = some c) : free p m = some ((), put m p none) := by
  unfold free
  have : p ≠ 0 := fun e => by rw [e, h0] at h; cases h
  rw [if_neg this, h]

/-! ### Chains of nodes -/

/-- From `p` on there are the nodes `xs`, given by their addresses and those of their entries. -/
def Chain (m : Mem) : Ptr → List (Ptr × Ptr) → Prop
  | p, [] => p = 0
  | p, x :: xs => p = x.1 ∧ ∃ n, m x.1 = some (.node n) ∧ n.item = x.2 ∧ Chain m n.next xs

/-- The entries of the nodes. -/
inductive Items {V : Type} (E : Entry V) (m : Mem) : List (Ptr × Ptr) → List V → Prop
  | nil : Items E m [] []
  | cons {x : Ptr × Ptr} {v : V} {xs : List (Ptr × Ptr)} {vs : List V} (h : m x.2 = some (E.cell v)) (hs : Items E m xs vs) : Items E m (x :: xs) (v :: vs)

/-- The list at `p`. The first node is the list itself; only its fields `head` and `tail` are used. -/
def IsList (m : Mem) (p : Ptr) : List (Ptr × Ptr) → Prop
  | [] => ∃ n, m p = some (.node n) ∧ n.head = 0
  | x :: xs => x.1 = p ∧ Chain m p (x :: xs) ∧ ∃ n, m p = some (.node n) ∧ n.head = p ∧ n.tail = ((x :: xs).getLastD (0, 0)).1

/-- The blocks of the list. -/
def blocks (p : Ptr) (xs : List (Ptr × Ptr)) : List Ptr :=
  match xs with
  | [] => [p]
  | xs => xs.map (·.1) ++ xs.map (·.2)

/-- The list at `p` has the entries `vs` and consists of the blocks `bs`. -/
def Holds {V : Type} (E : Entry V) (m : Mem) (p : Ptr) (vs : List V) (bs : List Ptr) : Prop :=
  ∃ xs, IsList m p xs ∧ Items E m xs vs ∧ bs.Perm (blocks p xs) ∧ bs.Nodup

theorem Chain.congr {m m' : Mem} : ∀ {xs : List (Ptr × Ptr)} {p : Ptr}, Chain m p xs →
    (∀ a ∈ xs.map (·.1), ∀ n, m a = some (.node n) → ∃ n', m' a = some (.node n') ∧ n'.item = n.item ∧ n'.next = n.next) → Chain m' p xs
  | [], _, h, _ => h
  | x :: xs, p, h, g => by
    obtain ⟨h1, n, h2, h3, h4⟩ := h
    obtain ⟨n', k1, k2, k3⟩ := g x.1 (by simp) n h2
    exact ⟨h1, n', k1, k2.trans h3, k3 ▸ h4.congr fun a ha => g a (by simp [ha])⟩

theorem Items.congr {V : Type} {E : Entry V} {m m' : Mem} {xs : List (Ptr × Ptr)} {vs : List V} (h : Items E m xs vs) :
    (∀ a ∈ xs.map (·.2), m' a = m a) → Items E m' xs vs := by
  induction h with
  | nil => intro _; exact .nil
  | cons h _ ih => intro g; exact .cons ((g _ (by simp)).trans h) (ih fun a ha => g a (by simp [ha]))

theorem Items.length {V : Type} {E : Entry V} {m : Mem} {xs : List (Ptr × Ptr)} {vs : List V} (h : Items E m xs vs) : xs.length = vs.length := by
  induction h with
  | nil => rfl
  | cons _ _ ih => simp [ih]

theorem Items.append {V : Type} {E : Entry V} {m : Mem} {xs ys : List (Ptr × Ptr)} {vs ws : List V} (h : Items E m xs vs) (h' : Items E m ys ws) :
    Items E m (xs ++ ys) (vs ++ ws) := by
  induction h with
  | nil => exact h'
  | cons h _ ih => exact .cons h ih

theorem IsList.congr {m m' : Mem} {p : Ptr} {xs : List (Ptr × Ptr)} (h : IsList m p xs) (g : ∀ a ∈ blocks p xs, m' a = m a) : IsList m' p xs := by
  cases xs with
  | nil =>
    obtain ⟨n, h1, h2⟩ := h
    exact ⟨n, by rw [g p (by simp [blocks]), h1], h2⟩
  | cons x xs =>
    obtain ⟨h1, h2, n, h3, h4⟩ := h
    refine ⟨h1, h2.congr fun a ha n hn => ⟨n, by rw [g a, hn]; simp only [blocks, List.mem_append]; exact .inl ha, rfl, rfl⟩, n, ?_, h4⟩
    rw [g p, h3]
    simp [blocks, h1]

/-- What a list is depends on its blocks only. -/
theorem Holds.congr {V : Type} {E : Entry V} {m m' : Mem} {p : Ptr} {vs : List V} {bs : List Ptr} (h : Holds E m p vs bs)
    (g : ∀ a ∈ bs, m' a = m a) : Holds E m' p vs bs := by
  obtain ⟨xs, h1, h2, h3, h4⟩ := h
  have g' : ∀ a ∈ blocks p xs, m' a = m a := fun a ha => g a (h3.mem_iff.mpr ha)
  refine ⟨xs, h1.congr g', h2.congr fun a ha => g' a ?_, h3, h4⟩
  cases xs with
  | nil => cases ha
  | cons x xs => simp only [blocks, List.mem_append]; exact .inr ha

theorem Chain.nodes {m : Mem} : ∀ {xs : List (Ptr × Ptr)} {p : Ptr}, Chain m p xs → ∀ a ∈ xs.map (·.1), ∃ n, m a = some (.node n)
  | [], _, _, _, ha => nomatch ha
  | x :: xs, _, h, a, ha => by
    obtain ⟨_, n, h2, _, h4⟩ := h
    rw [List.map_cons] at ha
    rcases List.mem_cons.mp ha with rfl | ha
    · exact ⟨n, h2⟩
    · exact h4.nodes a ha

theorem Items.items {V : Type} {E : Entry V} {m : Mem} {xs : List (Ptr × Ptr)} {vs : List V} (h : Items E m xs vs) :
    ∀ a ∈ xs.map (·.2), ∃ v, m a = some (E.cell v) := by
  induction h with
  | nil => exact fun _ h => nomatch h
  | cons h _ ih =>
    intro a ha
    rw [List.map_cons] at ha
    rcases List.mem_cons.mp ha with rfl | ha
    · exact ⟨_, h⟩
    · exact ih a ha

/-- All blocks of a list are allocated. -/
theorem Holds.alive {V : Type} {E : Entry V} {m : Mem} {p : Ptr} {vs : List V} {bs : List Ptr} (h : Holds E m p vs bs) :
    ∀ a ∈ bs, m a ≠ none := by
  obtain ⟨xs, h1, h2, h3, _⟩ := h
  intro a ha
  replace ha := h3.mem_iff.mp ha
  cases xs with
  | nil =>
    obtain ⟨n, g, _⟩ := h1
    simp only [blocks, List.mem_singleton] at ha
    rw [ha, g]; exact fun h => nomatch h
  | cons x xs =>
    simp only [blocks, List.mem_append] at ha
    rcases ha with ha | ha
    · obtain ⟨n, g⟩ := h1.2.1.nodes a ha
      rw [g]; exact fun h => nomatch h
    · obtain ⟨n, g⟩ := h2.items a ha
      rw [g]; exact fun h => nomatch h

/-- One block for each node, one for each entry; an empty list is one node. -/
theorem Holds.count {V : Type} {E : Entry V} {m : Mem} {p : Ptr} {vs : List V} {bs : List Ptr} (h : Holds E m p vs bs) :
    bs.length = if vs.isEmpty then 1 else 2 * vs.length := by
  obtain ⟨xs, _, h2, h3, _⟩ := h
  have := h2.length
  rw [h3.length_eq]
  cases h2 with
  | nil => rfl
  | cons => simp only [blocks, List.length_append, List.length_map]; simp at this ⊢; omega

/-! ### A Good allocator -/

/-- `malloc` returns an address that is not NULL and not in use, as long as finitely many are in use. -/
def Good (al : Alloc) : Prop := ∀ m : Mem, (∃ used : List Ptr, ∀ a, m a ≠ none → a ∈ used) → al m ≠ 0 ∧ m (al m) = none

/-- The memory is finite, and NULL is not an address in it. -/
def Finite (m : Mem) : Prop := m 0 = none ∧ ∃ used : List Ptr, ∀ a, m a ≠ none → a ∈ used

theorem Finite.put {m : Mem} (h : Finite m) {p : Ptr} (hp : p ≠ 0) (c : Option Cell) : Finite (put m p c) := by
  obtain ⟨h0, used, hu⟩ := h
  refine ⟨by rw [put_other (Ne.symm hp), h0], p :: used, fun a ha => ?_⟩
  by_cases e : a = p
  · simp [e]
  · rw [put_other e] at ha
    exact List.mem_cons_of_mem _ (hu a ha)

/-! ### Reading -/

section
variable {V : Type} {E : Entry V}

theorem sumFrom_run {f : V → Int} {m : Mem} (h0 : m 0 = none) : ∀ {xs : List (Ptr × Ptr)} {vs : List V} {p : Ptr} (s : Int), Chain m p xs → Items E m xs vs →
    sumFrom E f p s m = some (vs.foldl (fun s e => s + f e) s, m)
  | [], _, p, s, h, h' => by
    cases h'
    rw [sumFrom, show p = 0 from h]
    rfl
  | x :: xs, _, p, s, h, h' => by
    cases h' with
    | @cons _ v _ vs g hs =>
      obtain ⟨h1, n, h2, h3, h4⟩ := h
      have hp : p ≠ 0 := fun e => by rw [← h1, e, h0] at h2; cases h2
      rw [sumFrom, if_neg hp, bind_run (getNode_run (h1 ▸ h2)), bind_run (getItem_run E (h3 ▸ g)), sumFrom_run h0 _ h4 hs]
      rfl

/-- The head of the list, from which all loops start. -/
theorem IsList.head {m : Mem} {p : Ptr} {xs : List (Ptr × Ptr)} (h : IsList m p xs) : ∃ n, m p = some (.node n) ∧ Chain m n.head xs ∧
    (n.head = 0 ↔ xs = []) ∨ m 0 ≠ none := by
  by_cases h0 : m 0 = none
  · cases xs with
    | nil => obtain ⟨n, h1, h2⟩ := h; exact ⟨n, .inl ⟨h1, h2, by simp [h2]⟩⟩
    | cons x xs =>
      obtain ⟨h1, h2, n, h3, h4, _⟩ := h
      refine ⟨n, .inl ⟨h3, h4 ▸ h2, ?_⟩⟩
      have : p ≠ 0 := fun e => by rw [e, h0] at h3; cases h3
      simp [h4, this]
  · exact ⟨{}, .inr h0⟩

theorem listSum_run {f : V → Int} {m : Mem} (h0 : m 0 = none) {p : Ptr} {vs : List V} {bs : List Ptr} (h : Holds E m p vs bs) :
    listSum E f p m = some (vs.foldl (fun s e => s + f e) 0, m) := by
  obtain ⟨xs, h1, h2, _⟩ := h
  obtain ⟨n, ⟨g1, g2, _⟩ | g⟩ := h1.head
  · rw [listSum, bind_run (getNode_run g1), sumFrom_run h0 _ g2 h2]
  · exact absurd h0 g

/-- The first entry of a language. -/
def find (E : Entry V) (lang : String) : List V → Option V
  | [] => none
  | v :: vs => if E.lang v = lang then some v else find E lang vs

theorem getFrom_run {lang : String} {m : Mem} (h0 : m 0 = none) : ∀ {xs : List (Ptr × Ptr)} {vs : List V} {p : Ptr}, Chain m p xs → Items E m xs vs →
    ∃ q, getFrom E lang p m = some (q, m) ∧ match find E lang vs with
      | none => q = 0
      | some v => m q = some (E.cell v) ∧ q ∈ xs.map (·.2)
  | [], _, p, h, h' => by
    cases h'
    rw [getFrom, show p = 0 from h]
    exact ⟨0, rfl, rfl⟩
  | x :: xs, _, p, h, h' => by
    cases h' with
    | @cons _ v _ vs g hs =>
      obtain ⟨h1, n, h2, h3, h4⟩ := h
      have hp : p ≠ 0 := fun e => by rw [← h1, e, h0] at h2; cases h2
      rw [getFrom, if_neg hp, bind_run (getNode_run (h1 ▸ h2)), bind_run (getItem_run E (h3 ▸ g))]
      unfold find
      by_cases hl : E.lang v = lang
      · rw [if_pos hl, if_pos hl, h3]
        exact ⟨_, rfl, g, by simp⟩
      · rw [if_neg hl, if_neg hl]
        obtain ⟨q, k1, k2⟩ := getFrom_run (lang := lang) h0 h4 hs
        refine ⟨q, k1, ?_⟩
        split at k2
        · exact k2
        · exact ⟨k2.1, List.mem_cons_of_mem _ k2.2⟩

theorem listGet_run {lang : String} {m : Mem} (h0 : m 0 = none) {p : Ptr} {vs : List V} {bs : List Ptr} (h : Holds E m p vs bs) :
    ∃ q, listGet E lang p m = some (q, m) ∧ match find E lang vs with
      | none => q = 0
      | some v => m q = some (E.cell v) ∧ q ∈ bs := by
  obtain ⟨xs, h1, h2, h3, _⟩ := h
  obtain ⟨n, ⟨g1, g2, _⟩ | g⟩ := h1.head
  · obtain ⟨q, k1, k2⟩ := getFrom_run (lang := lang) h0 g2 h2
    refine ⟨q, by rw [listGet, bind_run (getNode_run g1), k1], ?_⟩
    split at k2
    · exact k2
    · refine ⟨k2.1, h3.mem_iff.mpr ?_⟩
      cases xs with
      | nil => cases k2.2
      | cons x xs => simp only [blocks, List.mem_append]; exact .inr k2.2
  · exact absurd h0 g

/-! ### Freeing -/

theorem freeFrom_run : ∀ {xs : List (Ptr × Ptr)} {vs : List V} {p : Ptr} {m : Mem}, m 0 = none → Chain m p xs → Items E m xs vs →
    (xs.map (·.1) ++ xs.map (·.2)).Nodup → ∃ m', freeFrom p m = some ((), m') ∧ m' 0 = none ∧
      (∀ a ∈ xs.map (·.1) ++ xs.map (·.2), m' a = none) ∧ (∀ a ∉ xs.map (·.1) ++ xs.map (·.2), m' a = m a)
  | [], _, p, m, h0, h, _, _ => by
    rw [freeFrom, show p = 0 from h]
    exact ⟨m, rfl, h0, by simp, by simp⟩
  | x :: xs, _, p, m, h0, h, h', hn => by
    cases h' with
    | @cons _ v _ vs g hs =>
      obtain ⟨h1, n, h2, h3, h4⟩ := h
      have hp : p ≠ 0 := fun e => by rw [← h1, e, h0] at h2; cases h2
      have hx2 : x.2 ≠ 0 := fun e => by rw [e, h0] at g; cases g
      have hne : x.1 ≠ x.2 := by
        intro e
        rw [List.nodup_append] at hn
        exact hn.2.2 x.1 (by simp) x.2 (by simp) e
      have hn' : (xs.map (·.1) ++ xs.map (·.2)).Nodup ∧ x.1 ∉ xs.map (·.1) ++ xs.map (·.2) ∧ x.2 ∉ xs.map (·.1) ++ xs.map (·.2) := by
        simp only [List.map_cons] at hn
        rw [List.cons_append, List.nodup_cons] at hn
        obtain ⟨a1, a2⟩ := hn
        have a3 : (x.2 :: (xs.map (·.1) ++ xs.map (·.2))).Nodup := (List.perm_middle.nodup_iff).mp a2
        rw [List.nodup_cons] at a3
        refine ⟨a3.2, fun e => a1 ?_, a3.1⟩
        rw [List.mem_append] at e ⊢
        exact e.imp id (List.mem_cons_of_mem _)
      obtain ⟨b1, b2, b3⟩ := hn'
      have e1 : free n.item m = some ((), put m x.2 none) := by rw [h3]; exact free_run h0 g
      have e2 : free p (put m x.2 none) = some ((), put (put m x.2 none) x.1 none) := by
        rw [h1]; exact free_run (by rw [put_other (Ne.symm hx2), h0]) (c := .node n) (by rw [put_other hne, h2])
      have hx1 : x.1 ≠ 0 := h1 ▸ hp
      have old : ∀ a ∈ xs.map (·.1) ++ xs.map (·.2), put (put m x.2 none) x.1 none a = m a := by
        intro a ha
        have c1 : a ≠ x.1 := fun e => b2 (e ▸ ha)
        have c2 : a ≠ x.2 := fun e => b3 (e ▸ ha)
        rw [put_other c1, put_other c2]
      obtain ⟨m', k1, k2, k3, k4⟩ := freeFrom_run (xs := xs) (vs := vs) (p := n.next) (m := put (put m x.2 none) x.1 none)
        (by rw [put_other (Ne.symm hx1), put_other (Ne.symm hx2), h0])
        (h4.congr fun a ha n hn => ⟨n, by rw [old a (List.mem_append_left _ ha), hn], rfl, rfl⟩)
        (hs.congr fun a ha => old a (List.mem_append_right _ ha)) b1
      refine ⟨m', ?_, k2, ?_, ?_⟩
      · rw [freeFrom, if_neg hp, bind_run (getNode_run (h1 ▸ h2)), bind_run e1, bind_run e2, k1]
      · intro a ha
        by_cases hm : a ∈ xs.map (·.1) ++ xs.map (·.2)
        · exact k3 a hm
        · rw [k4 a hm]
          simp only [List.map_cons, List.cons_append, List.mem_cons, List.mem_append] at ha hm
          have : a = x.1 ∨ a = x.2 := by
            rcases ha with e | h | e | h
            · exact .inl e
            · exact absurd (.inl h) hm
            · exact .inr e
            · exact absurd (.inr h) hm
          rcases this with rfl | rfl
          · rw [put_same]
          · rw [put_other (Ne.symm hne), put_same]
      · intro a ha
        simp only [List.map_cons, List.cons_append, List.mem_cons, List.mem_append, not_or] at ha
        rw [k4 a (by rw [List.mem_append, not_or]; exact ⟨ha.2.1, ha.2.2.2⟩), put_other ha.1, put_other ha.2.2.1]

/-- Freeing a list frees its blocks and nothing else. -/
theorem listFree_run {m : Mem} (h0 : m 0 = none) {p : Ptr} {vs : List V} {bs : List Ptr} (h : Holds E m p vs bs) :
    ∃ m', listFree p m = some ((), m') ∧ m' 0 = none ∧ (∀ a ∈ bs, m' a = none) ∧ ∀ a ∉ bs, m' a = m a := by
  obtain ⟨xs, h1, h2, h3, h5⟩ := h
  obtain ⟨n, ⟨g1, g2, g3⟩ | g⟩ := h1.head
  · have hp : p ≠ 0 := fun e => by rw [e, h0] at g1; cases g1
    cases xs with
    | nil =>
      have e0 : n.head = 0 := g3.mpr rfl
      refine ⟨put m p none, ?_, by rw [put_other (Ne.symm hp), h0], ?_, ?_⟩
      · rw [listFree, bind_run (getNode_run g1), if_neg (by simp [e0]), free_run h0 g1]
      · intro a ha
        have := h3.mem_iff.mp ha
        simp only [blocks, List.mem_singleton] at this
        rw [this, put_same]
      · intro a ha
        exact put_other fun e => ha (h3.mem_iff.mpr (by simp [blocks, e]))
    | cons x xs =>
      have e0 : n.head ≠ 0 := fun e => nomatch g3.mp e
      obtain ⟨m', k1, k2, k3, k4⟩ := freeFrom_run h0 g2 h2 (h3.nodup_iff.mp h5)
      refine ⟨m', ?_, k2, fun a ha => k3 a (h3.mem_iff.mp ha), fun a ha => k4 a fun e => ha (h3.mem_iff.mpr e)⟩
      rw [listFree, bind_run (getNode_run g1), if_pos e0, k1]
  · exact absurd h0 g

/-! ### Adding -/

/-- What adding an entry to a list means: the first entry with the language is merged with it, or it is appended; if only the first
entry is looked at, it is appended unless that one has the language. -/
def addFirst (E : Entry V) : List V → V → List V
  | [], w => [w]
  | v :: vs, w => if E.lang v = E.lang w then E.merge v w :: vs else v :: addFirst E vs w

def add (E : Entry V) (vs : List V) (w : V) : List V :=
  match vs with
  | [] => [w]
  | v :: vs => if E.headOnly then (if E.lang v = E.lang w then E.merge v w :: vs else v :: (vs ++ [w])) else addFirst E (v :: vs) w

/-- What the search finds: a node whose entry is to be merged, or none. -/
def Found (E : Entry V) (xs : List (Ptr × Ptr)) (vs new : List V) (w : V) (r : Ptr) : Prop :=
  (∃ xs1 x xs2 vs1 v vs2, xs = xs1 ++ x :: xs2 ∧ vs = vs1 ++ v :: vs2 ∧ xs1.length = vs1.length ∧ r = x.1 ∧ new = vs1 ++ E.merge v w :: vs2) ∨
  (r = 0 ∧ new = vs ++ [w])

theorem search_all (ho : E.headOnly = false) {list loc : Ptr} {w : V} {m : Mem} (h0 : m 0 = none) (hw : m loc = some (E.cell w)) :
    ∀ {xs : List (Ptr × Ptr)} {vs : List V} {p : Ptr}, Chain m p xs → Items E m xs vs →
    ∃ r, search E list loc p m = some (r, m) ∧ Found E xs vs (addFirst E vs w) w r
  | [], _, p, h, h' => by
    cases h'
    rw [search, show p = 0 from h]
    exact ⟨0, rfl, .inr ⟨rfl, rfl⟩⟩
  | x :: xs, _, p, h, h' => by
    cases h' with
    | @cons _ v _ vs g hs =>
      obtain ⟨h1, n, h2, h3, h4⟩ := h
      have hp : p ≠ 0 := fun e => by rw [← h1, e, h0] at h2; cases h2
      have hi : n.item ≠ 0 := fun e => by rw [← h3, e, h0] at g; cases g
      rw [search, if_neg hp, bind_run (getNode_run (h1 ▸ h2)), ho, if_neg (by simp), bind_run (getNode_run (h1 ▸ h2)), if_pos hi,
        bind_run (getItem_run E (h3 ▸ g)), bind_run (getItem_run E hw)]
      unfold addFirst
      by_cases hl : E.lang v = E.lang w
      · rw [if_pos hl, if_pos hl]
        exact ⟨p, rfl, .inl ⟨[], x, xs, [], v, vs, rfl, rfl, rfl, h1, rfl⟩⟩
      · rw [if_neg hl, if_neg hl]
        obtain ⟨r, k1, k2⟩ := search_all ho h0 hw h4 hs
        refine ⟨r, k1, ?_⟩
        rcases k2 with ⟨xs1, y, xs2, vs1, u, vs2, a1, a2, a3, a4, a5⟩ | ⟨a1, a2⟩
        · exact .inl ⟨x :: xs1, y, xs2, v :: vs1, u, vs2, by rw [a1]; rfl, by rw [a2]; rfl, by simp [a3], a4, by rw [a5]; rfl⟩
        · exact .inr ⟨a1, by rw [a2]; rfl⟩

theorem search_head (ho : E.headOnly = true) {list loc : Ptr} {n0 : Node} {v0 w : V} {m : Mem} (h0 : m 0 = none) (hw : m loc = some (E.cell w))
    (hn : m list = some (.node n0)) (hv : m n0.item = some (E.cell v0)) (hl : E.lang v0 ≠ E.lang w) :
    ∀ {xs : List (Ptr × Ptr)} {p : Ptr}, Chain m p xs → search E list loc p m = some (0, m)
  | [], p, h => by
    rw [search, show p = 0 from h]
    rfl
  | x :: xs, p, h => by
    obtain ⟨h1, n, h2, h3, h4⟩ := h
    have hp : p ≠ 0 := fun e => by rw [← h1, e, h0] at h2; cases h2
    have hi : n0.item ≠ 0 := fun e => by rw [e, h0] at hv; cases hv
    rw [search, if_neg hp, bind_run (getNode_run (h1 ▸ h2)), ho, if_pos rfl, bind_run (getNode_run hn), if_pos hi,
      bind_run (getItem_run E hv), bind_run (getItem_run E hw), if_neg hl]
    exact search_head ho h0 hw hn hv hl h4

theorem search_run {list loc : Ptr} {w : V} {m : Mem} (h0 : m 0 = none) (hw : m loc = some (E.cell w)) {x : Ptr × Ptr} {xs : List (Ptr × Ptr)} {vs : List V}
    (hl : IsList m list (x :: xs)) (hi : Items E m (x :: xs) vs) :
    ∃ r, search E list loc list m = some (r, m) ∧ Found E (x :: xs) vs (add E vs w) w r := by
  obtain ⟨h1, h2, n, h3, h4, h5⟩ := hl
  cases hi with
  | @cons _ v _ vs g hs =>
    unfold add
    dsimp only
    cases ho : E.headOnly with
    | false =>
      rw [if_neg (by simp)]
      exact search_all ho h0 hw h2 (.cons g hs)
    | true =>
      rw [if_pos rfl]
      have h2' := h2
      obtain ⟨_, n', k2, k3, k4⟩ := h2'
      have e : n' = n := by
        rw [h1, h3] at k2
        injection k2 with k2
        injection k2 with k2
        exact k2.symm
      subst e
      by_cases hv : E.lang v = E.lang w
      · rw [if_pos hv]
        refine ⟨list, ?_, .inl ⟨[], x, xs, [], v, vs, rfl, rfl, rfl, h1.symm, rfl⟩⟩
        have hp : list ≠ 0 := fun e => by rw [e, h0] at h3; cases h3
        have hi : n'.item ≠ 0 := fun e => by rw [← k3, e, h0] at g; cases g
        rw [search, if_neg hp, bind_run (getNode_run h3), ho, if_pos rfl, bind_run (getNode_run h3), if_pos hi,
          bind_run (getItem_run E (k3 ▸ g)), bind_run (getItem_run E hw), if_pos hv]
        rfl
      · rw [if_neg hv]
        refine ⟨0, search_head ho h0 hw h3 (k3 ▸ g) hv h2, .inr ⟨rfl, rfl⟩⟩

theorem Chain.snoc {m m' : Mem} {t i b c : Ptr} {nt nb : Node} (ht : m' t = some (.node nt)) (ht1 : nt.item = i) (ht2 : nt.next = b)
    (hb : m' b = some (.node nb)) (hb1 : nb.item = c) (hb2 : nb.next = 0) : ∀ {ys : List (Ptr × Ptr)} {p : Ptr}, Chain m p (ys ++ [(t, i)]) →
    (∀ a ∈ ys.map (·.1), ∀ n, m a = some (.node n) → ∃ n', m' a = some (.node n') ∧ n'.item = n.item ∧ n'.next = n.next) →
    Chain m' p (ys ++ [(t, i), (b, c)])
  | [], p, h, _ => ⟨h.1, nt, ht, ht1, ht2, nb, hb, hb1, hb2⟩
  | y :: ys, p, h, g => by
    obtain ⟨h1, n, h2, h3, h4⟩ := h
    obtain ⟨n', k1, k2, k3⟩ := g y.1 (by simp) n h2
    exact ⟨h1, n', k1, k2.trans h3, k3 ▸ h4.snoc ht ht1 ht2 hb hb1 hb2 fun a ha => g a (by simp [ha])⟩

theorem Items.split {m : Mem} : ∀ {xs1 : List (Ptr × Ptr)} {x : Ptr × Ptr} {xs2 : List (Ptr × Ptr)} {vs1 : List V} {v : V} {vs2 : List V},
    Items E m (xs1 ++ x :: xs2) (vs1 ++ v :: vs2) → xs1.length = vs1.length → Items E m xs1 vs1 ∧ m x.2 = some (E.cell v) ∧ Items E m xs2 vs2
  | [], x, xs2, [], v, vs2, h, _ => by cases h with | cons h hs => exact ⟨.nil, h, hs⟩
  | [], _, _, _ :: _, _, _, _, hl => nomatch hl
  | _ :: _, _, _, [], _, _, _, hl => nomatch hl
  | y :: xs1, x, xs2, u :: vs1, v, vs2, h, hl => by
    cases h with
    | cons h hs =>
      obtain ⟨a, b, c⟩ := hs.split (by simpa using hl)
      exact ⟨.cons h a, b, c⟩

omit E in
/-- Adding the first item. -/
theorem first_run {m m2 : Mem} {p x : Ptr} {n : Node} {lic : String} {mk : M Ptr} (hn : m p = some (.node n))
    (hmk : mk (put m p (some (.node { n with head := p, tail := p }))) = some (x, m2)) (h2 : m2 p = some (.node { n with head := p, tail := p })) :
    first p lic mk m = some (x, put m2 p (some (.node { n with head := p, tail := p, item := x, lic := lic, next := 0 }))) := by
  rw [first, bind_run (getNode_run hn), bind_run (setNode_run hn), bind_run hmk, bind_run (getNode_run h2), bind_run (getNode_run h2), bind_run (setNode_run h2)]
  rfl

omit E in
/-- Adding an item to a list that is not empty. -/
theorem append_run {al : Alloc} {m m2 : Mem} {p x : Ptr} {y : Ptr × Ptr} {ys : List (Ptr × Ptr)} {lic : String} {mk : M Ptr}
    (hl : IsList m p (y :: ys)) (hnd : ((y :: ys).map (·.1)).Nodup) (h0 : m 0 = none) (hb : m (al m) = none)
    (hmk : mk (put m (al m) (some (.node {}))) = some (x, m2))
    (h2 : ∀ a, put m (al m) (some (.node {})) a ≠ none → m2 a = put m (al m) (some (.node {})) a) :
    ∃ m', append al p lic mk m = some (x, m') ∧ IsList m' p ((y :: ys) ++ [(al m, x)]) ∧ m' (al m) = some (.node { item := x, lic := lic }) ∧
      (∀ a ∈ (y :: ys).map (·.1), ∀ n, m a = some (.node n) → ∃ n', m' a = some (.node n') ∧ n'.item = n.item ∧ n'.lic = n.lic) ∧
      (∀ a, a ≠ al m → a ∉ (y :: ys).map (·.1) → m' a = m2 a) ∧ (Finite m2 → Finite m') := by
  obtain ⟨q1, q2, n, q3, q4, q5⟩ := hl
  obtain ⟨b, eb⟩ : ∃ b, b = al m := ⟨_, rfl⟩
  rw [← eb] at hb hmk h2 ⊢
  have hp : p ≠ 0 := fun e => by rw [e, h0] at q3; cases q3
  obtain ⟨zs, t, hyt⟩ : ∃ zs t, y :: ys = zs ++ [t] := ⟨(y :: ys).dropLast, (y :: ys).getLast (by simp), (List.dropLast_concat_getLast (by simp)).symm⟩
  have htail : n.tail = t.1 := by rw [q5, hyt]; simp
  have htm : t.1 ∈ (y :: ys).map (·.1) := by rw [hyt]; simp
  obtain ⟨nt, hnt⟩ := q2.nodes t.1 htm
  have hnti : nt.item = t.2 ∧ nt.next = 0 := by
    have : ∀ {zs : List (Ptr × Ptr)} {p : Ptr}, Chain m p (zs ++ [t]) → nt.item = t.2 ∧ nt.next = 0 := by
      intro zs
      induction zs with
      | nil =>
        intro p h
        obtain ⟨_, n', e1, e2, e3⟩ := h
        rw [hnt] at e1
        injection e1 with e1
        injection e1 with e1
        exact ⟨e1 ▸ e2, e1 ▸ e3⟩
      | cons z zs ih =>
        intro p h
        obtain ⟨_, n', _, _, b⟩ := h
        exact ih b
    rw [hyt] at q2
    exact this q2
  have ht0 : t.1 ≠ 0 := fun e => by rw [e, h0] at hnt; cases hnt
  have live : ∀ {a : Ptr} {k : Cell}, m a = some k → a ≠ b := fun ha e => by rw [e, hb] at ha; cases ha
  have m2old : ∀ {a : Ptr} {k : Cell}, m a = some k → m2 a = some k := by
    intro a k ha
    rw [h2 a (by rw [put_other (live ha), ha]; exact fun h => nomatch h), put_other (live ha), ha]
  have m2b : m2 b = some (.node {}) := by
    rw [h2 b (by rw [put_same]; exact fun h => nomatch h), put_same]
  have hbl : b ≠ p := Ne.symm (live q3)
  have hbt : b ≠ t.1 := Ne.symm (live hnt)
  let m3 := put m2 b (some (.node { item := x, lic := lic }))
  have u3 : m3 = put m2 b (some (.node { item := x, lic := lic })) := rfl
  have m3old : ∀ {a : Ptr} {k : Cell}, m a = some k → m3 a = some k := by
    intro a k ha
    rw [u3, put_other (live ha), m2old ha]
  let m4 := put m3 t.1 (some (.node { nt with next := b }))
  have u4 : m4 = put m3 t.1 (some (.node { nt with next := b })) := rfl
  have tn : p = t.1 → nt = n := by
    intro e
    rw [← e, q3] at hnt
    injection hnt with hnt
    injection hnt with hnt
    exact hnt.symm
  obtain ⟨n4, hn4, hn4h, hn4i, hn4l, hn4n⟩ : ∃ n4 : Node, m4 p = some (.node n4) ∧ n4.head = p ∧ n4.item = n.item ∧ n4.lic = n.lic ∧
      (p ≠ t.1 → n4.next = n.next) ∧ (p = t.1 → n4.next = b) := by
    by_cases e : p = t.1
    · refine ⟨{ nt with next := b }, by rw [u4, e]; exact put_same .., ?_, ?_, ?_, fun g => absurd e g, fun _ => rfl⟩
      · rw [tn e]; exact q4
      · rw [tn e]
      · rw [tn e]
    · exact ⟨n, by rw [u4, put_other e, m3old q3], q4, rfl, rfl, fun _ => rfl, fun g => absurd g e⟩
  let m5 := put m4 p (some (.node { n4 with tail := b }))
  have u5 : m5 = put m4 p (some (.node { n4 with tail := b })) := rfl
  have m5b : m5 b = some (.node { item := x, lic := lic }) := by
    rw [u5, put_other hbl, u4, put_other hbt, u3, put_same]
  have m5o : ∀ a, a ≠ p → a ≠ t.1 → a ≠ b → m5 a = m2 a := by
    intro a e1 e2 e3
    rw [u5, put_other e1, u4, put_other e2, u3, put_other e3]
  have m5t : ∃ n', m5 t.1 = some (.node n') ∧ n'.item = t.2 ∧ n'.lic = nt.lic ∧ n'.next = b := by
    by_cases e : p = t.1
    · refine ⟨{ n4 with tail := b }, by rw [u5, ← e]; exact put_same .., ?_, ?_, hn4n.2 e⟩
      · show n4.item = _
        rw [hn4i, ← tn e, hnti.1]
      · show n4.lic = _
        rw [hn4l, tn e]
    · refine ⟨{ nt with next := b }, ?_, hnti.1, rfl, rfl⟩
      rw [u5, put_other (Ne.symm e), u4, put_same]
  have hlen : p ∈ (y :: ys).map (·.1) := by rw [← q1]; simp
  refine ⟨m5, ?_, ⟨q1, ?_, { n4 with tail := b }, put_same .., hn4h, ?_⟩, m5b, ?_, ?_, ?_⟩
  · rw [append, bind_run (show listNew al m = some (b, put m b (some (.node {}))) by rw [eb]; rfl), bind_run hmk, bind_run (getNode_run m2b), bind_run (setNode_run m2b),
      bind_run (getNode_run (m3old q3)), htail, bind_run (getNode_run (m3old hnt)), bind_run (setNode_run (m3old hnt)),
      bind_run (getNode_run hn4), bind_run (setNode_run hn4)]
    rfl
  · obtain ⟨n', g1, g2, _, g3⟩ := m5t
    show Chain m5 p ((y :: ys) ++ [(b, x)])
    rw [hyt, List.append_assoc]
    rw [hyt] at q2
    refine Chain.snoc g1 g2 g3 m5b rfl rfl q2 ?_
    intro a ha na hna
    rw [hyt, List.map_append, List.nodup_append] at hnd
    have hat : a ≠ t.1 := hnd.2.2 a ha t.1 (by simp)
    by_cases e : a = p
    · have en : na = n := by
        rw [e, q3] at hna
        injection hna with hna
        injection hna with hna
        exact hna.symm
      refine ⟨{ n4 with tail := b }, by rw [u5, e]; exact put_same .., ?_, ?_⟩
      · show n4.item = _
        rw [hn4i, en]
      · show n4.next = _
        rw [hn4n.1 (e ▸ hat), en]
    · exact ⟨na, by rw [m5o a e hat (live hna), m2old hna], rfl, rfl⟩
  · show b = (((y :: ys) ++ [(b, x)]).getLastD (0, 0)).1
    rw [List.getLastD_concat]
  · intro a ha na hna
    by_cases e : a = t.1
    · obtain ⟨n', g1, g2, g3, _⟩ := m5t
      rw [e, hnt] at hna
      injection hna with hna
      injection hna with hna
      subst hna
      exact ⟨n', e ▸ g1, g2.trans hnti.1.symm, g3⟩
    · by_cases e' : a = p
      · have en : na = n := by
          rw [e', q3] at hna
          injection hna with hna
          injection hna with hna
          exact hna.symm
        exact ⟨{ n4 with tail := b }, by rw [u5, e']; exact put_same .., by rw [en]; exact hn4i, by rw [en]; exact hn4l⟩
      · exact ⟨na, by rw [m5o a e' e (live hna), m2old hna], rfl, rfl⟩
  · intro a ha hb'
    exact m5o a (fun e => hb' (e ▸ hlen)) (fun e => hb' (e ▸ htm)) ha
  · intro f2
    have hb0 : b ≠ 0 := fun e => by rw [e, f2.1] at m2b; cases m2b
    exact ((f2.put hb0 _).put ht0 _).put hp _

/-- Adding an entry made by `mk` to an empty list. -/
theorem firstItem_run {al : Alloc} (hal : Good al) {m : Mem} (hm : Finite m) {list : Ptr} {bs : List Ptr} {w : V} {mk : M Ptr}
    (h : Holds E m list [] bs) (hmk : ∀ n, mk (put m list (some (.node n))) = itemNew E al w (put m list (some (.node n)))) :
    ∃ m' x new, first list "" mk m = some (x, m') ∧ m' x = some (E.cell w) ∧ x ∈ new ∧ Finite m' ∧ Holds E m' list [w] (new ++ bs) ∧
      (∀ a ∈ new, m a = none) ∧ ∀ a, a ∉ new → a ∉ bs → m' a = m a := by
  have h0 := hm.1
  obtain ⟨xs, h1, h2, h3, h5⟩ := h
  cases h2
  obtain ⟨n, g1, g2⟩ := h1
  have hp : list ≠ 0 := fun e => by rw [e, h0] at g1; cases g1
  let m1 := put m list (some (.node { n with head := list, tail := list }))
  have u1 : m1 = put m list (some (.node { n with head := list, tail := list })) := rfl
  have f1 : Finite m1 := hm.put hp _
  obtain ⟨c1, c2⟩ := hal m1 f1.2
  obtain ⟨c, ec⟩ : ∃ c, c = al m1 := ⟨_, rfl⟩
  rw [← ec] at c1 c2
  have hcp : list ≠ c := by
    intro e
    rw [← e, u1, put_same] at c2
    cases c2
  have hmc : m c = none := by
    rwa [u1, put_other (Ne.symm hcp)] at c2
  let m2 := put m1 c (some (E.cell w))
  have u2 : m2 = put m1 c (some (E.cell w)) := rfl
  have f2 : Finite m2 := f1.put c1 _
  have e2 : m2 list = some (.node { n with head := list, tail := list }) := by rw [u2, put_other hcp, u1, put_same]
  let n3 : Node := { n with head := list, tail := list, item := c, lic := "", next := 0 }
  let m3 := put m2 list (some (.node n3))
  have u3 : m3 = put m2 list (some (.node n3)) := rfl
  have m3c : m3 c = some (E.cell w) := by rw [u3, put_other (Ne.symm hcp), u2, put_same]
  refine ⟨m3, c, [c], ?_, m3c, by simp, f2.put hp _, ?_, ?_, ?_⟩
  · refine first_run g1 (m2 := m2) ?_ e2
    rw [hmk]
    show malloc al (E.cell w) m1 = _
    rw [u2, ec]
    rfl
  · refine ⟨[(list, c)], ⟨rfl, ⟨rfl, n3, put_same .., rfl, rfl⟩, n3, put_same .., rfl, rfl⟩, .cons m3c .nil, ?_, ?_⟩
    · show ([c] ++ bs).Perm [list, c]
      exact (List.Perm.cons c h3).trans (List.Perm.swap ..)
    · rw [List.singleton_append, List.nodup_cons]
      refine ⟨fun e => hcp ?_, h5⟩
      have := h3.mem_iff.mp e
      simp only [blocks, List.mem_singleton] at this
      exact this.symm
  · intro a ha
    rw [List.mem_singleton.mp ha]
    exact hmc
  · intro a ha hb
    have e1 : a ≠ c := by simpa using ha
    have e3 : a ≠ list := fun e => hb (h3.mem_iff.mpr (by simp [blocks, e]))
    rw [u3, put_other e3, u2, put_other e1, u1, put_other e3]

/-- Adding an entry made by `mk` at the end of a list that is not empty. -/
theorem appendItem_run {al : Alloc} (hal : Good al) {m : Mem} (hm : Finite m) {list : Ptr} {v : V} {vs : List V} {bs : List Ptr} {w : V} {mk : M Ptr}
    (h : Holds E m list (v :: vs) bs) (hmk : mk (put m (al m) (some (.node {}))) = itemNew E al w (put m (al m) (some (.node {})))) :
    ∃ m' x new, append al list "" mk m = some (x, m') ∧ m' x = some (E.cell w) ∧ x ∈ new ∧ Finite m' ∧ Holds E m' list (v :: vs ++ [w]) (new ++ bs) ∧
      (∀ a ∈ new, m a = none) ∧ ∀ a, a ∉ new → a ∉ bs → m' a = m a := by
  have h0 := hm.1
  have halive := h.alive
  obtain ⟨xs, h1, h2, h3, h5⟩ := h
  obtain ⟨y, ys, exs⟩ : ∃ y ys, xs = y :: ys := by
    cases h2 with | @cons x _ xs _ _ _ => exact ⟨x, xs, rfl⟩
  subst exs
  have hnd : ((y :: ys).map (·.1) ++ (y :: ys).map (·.2)).Nodup := h3.nodup_iff.mp h5
  obtain ⟨b1, b2⟩ := hal m hm.2
  obtain ⟨b, eb⟩ : ∃ b, b = al m := ⟨_, rfl⟩
  rw [← eb] at b1 b2 hmk
  let m1 := put m b (some (.node {}))
  have u1 : m1 = put m b (some (.node {})) := rfl
  have f1 : Finite m1 := hm.put b1 _
  obtain ⟨c1, c2⟩ := hal m1 f1.2
  obtain ⟨c, ec⟩ : ∃ c, c = al m1 := ⟨_, rfl⟩
  rw [← ec] at c1 c2
  have hcb : c ≠ b := by
    intro e
    rw [e, u1, put_same] at c2
    cases c2
  have hmc : m c = none := by rwa [u1, put_other hcb] at c2
  let m2 := put m1 c (some (E.cell w))
  have u2 : m2 = put m1 c (some (E.cell w)) := rfl
  have f2 : Finite m2 := f1.put c1 _
  obtain ⟨m', k1, k2, k3, k4, k5, k6⟩ := append_run (al := al) (m2 := m2) (x := c) (lic := "") (mk := mk) h1 (List.nodup_append.mp hnd).1 h0 (eb ▸ b2)
    (by rw [← eb, hmk]; show malloc al (E.cell w) m1 = _; rw [u2, ec]; rfl)
    (by
      rw [← eb]
      intro a ha
      have : a ≠ c := fun e => ha (e ▸ c2)
      rw [u2, put_other this])
  rw [← eb] at k2 k3 k5
  have hcb' : c ∉ bs := fun e => halive c e hmc
  have hbb : b ∉ bs := fun e => halive b e b2
  have nodesIn : ∀ a ∈ (y :: ys).map (·.1), a ∈ bs := fun a ha => h3.mem_iff.mpr (List.mem_append_left _ ha)
  have m'c : m' c = some (E.cell w) := by
    rw [k5 c hcb fun e => hcb' (nodesIn c e), u2, put_same]
  have other : ∀ a, a ≠ b → a ≠ c → a ∉ (y :: ys).map (·.1) → m' a = m a := by
    intro a e1 e2 e3
    rw [k5 a e1 e3, u2, put_other e2, u1, put_other e1]
  refine ⟨m', c, [b, c], k1, m'c, by simp, k6 f2, ⟨(y :: ys) ++ [(b, c)], k2, ?_, ?_, ?_⟩, ?_, ?_⟩
  · refine Items.append (h2.congr fun a ha => ?_) (Items.cons (x := (b, c)) m'c .nil)
    have hin : a ∈ bs := h3.mem_iff.mpr (List.mem_append_right _ ha)
    exact other a (fun e => hbb (e ▸ hin)) (fun e => hcb' (e ▸ hin)) fun hz => (List.nodup_append.mp hnd).2.2 a hz a ha rfl
  · show ([b, c] ++ bs).Perm (((y :: ys) ++ [(b, c)]).map (·.1) ++ ((y :: ys) ++ [(b, c)]).map (·.2))
    rw [List.map_append, List.map_append]
    refine (List.Perm.append_left _ h3).trans ?_
    show ([b] ++ ([c] ++ ((y :: ys).map (·.1) ++ (y :: ys).map (·.2)))).Perm _
    rw [List.append_assoc]
    refine List.Perm.trans (List.Perm.append_left [b] ?_) (List.perm_append_comm_assoc [b] ((y :: ys).map (·.1)) _)
    refine List.perm_append_comm.trans ?_
    rw [List.append_assoc]
    exact List.Perm.refl _
  · show (b :: c :: bs).Nodup
    rw [List.nodup_cons, List.nodup_cons]
    exact ⟨by simp [hbb, Ne.symm hcb], hcb', h5⟩
  · intro a ha
    rcases List.mem_cons.mp ha with rfl | ha
    · exact b2
    · rw [List.mem_singleton.mp ha]; exact hmc
  · intro a ha hb
    simp only [List.mem_cons, List.not_mem_nil, or_false, not_or] at ha
    exact other a ha.1 ha.2 fun e => hb (nodesIn a e)

/-- The head of a list that is not empty. -/
theorem Holds.head {m : Mem} (h0 : m 0 = none) {p : Ptr} {vs : List V} {bs : List Ptr} (h : Holds E m p vs bs) :
    ∃ n, m p = some (.node n) ∧ (vs = [] → n.head = 0) ∧ (vs ≠ [] → n.head = p ∧ p ≠ 0) := by
  obtain ⟨xs, h1, h2, _⟩ := h
  cases h2 with
  | nil =>
    obtain ⟨n, g1, g2⟩ := h1
    exact ⟨n, g1, fun _ => g2, fun h => absurd rfl h⟩
  | cons =>
    obtain ⟨_, _, n, g1, g2, _⟩ := h1
    exact ⟨n, g1, (fun h => nomatch h), fun _ => ⟨g2, fun e => by rw [e, h0] at g1; cases g1⟩⟩

/-- Changing an entry of a list in place. -/
theorem Holds.setAt {m : Mem} {p : Ptr} {bs : List Ptr} {xs1 xs2 : List (Ptr × Ptr)} {x : Ptr × Ptr} {vs1 vs2 : List V} {v v' : V}
    (hl : IsList m p (xs1 ++ x :: xs2)) (hi : Items E m (xs1 ++ x :: xs2) (vs1 ++ v :: vs2)) (hb : bs.Perm (blocks p (xs1 ++ x :: xs2))) (hd : bs.Nodup)
    (hlen : xs1.length = vs1.length) :
    m x.2 = some (E.cell v) ∧ x.2 ∈ bs ∧ Holds E (put m x.2 (some (E.cell v'))) p (vs1 ++ v' :: vs2) bs := by
  obtain ⟨y, ys, exs⟩ : ∃ y ys, xs1 ++ x :: xs2 = y :: ys := by
    cases xs1 with
    | nil => exact ⟨_, _, rfl⟩
    | cons a l => exact ⟨a, l ++ x :: xs2, rfl⟩
  have hb' : bs.Perm ((xs1 ++ x :: xs2).map (·.1) ++ (xs1 ++ x :: xs2).map (·.2)) := by
    rw [exs] at hb ⊢
    exact hb
  have hnd := hb'.nodup_iff.mp hd
  obtain ⟨i1, i2, i3⟩ := hi.split hlen
  have hxb : x.2 ∈ bs := hb'.mem_iff.mpr (by simp)
  have hnode : ∀ a ∈ (xs1 ++ x :: xs2).map (·.1), a ≠ x.2 := by
    intro a ha e
    rw [List.nodup_append] at hnd
    exact hnd.2.2 a ha x.2 (by simp) e
  have hit : x.2 ∉ xs1.map (·.2) ∧ x.2 ∉ xs2.map (·.2) := by
    have := (List.nodup_append.mp hnd).2.1
    rw [List.map_append, List.map_cons, List.perm_middle.nodup_iff, List.nodup_cons, List.mem_append, not_or] at this
    exact this.1
  refine ⟨i2, hxb, xs1 ++ x :: xs2, ?_, ?_, hb, hd⟩
  · rw [exs] at hl hnode ⊢
    obtain ⟨q1, q2, n, q3, q4⟩ := hl
    refine ⟨q1, q2.congr fun a ha n hn => ⟨n, ?_, rfl, rfl⟩, n, ?_, q4⟩
    · rw [put_other (hnode a ha), hn]
    · rw [put_other (hnode p (by rw [← q1]; simp)), q3]
  · have g1 : Items E (put m x.2 (some (E.cell v'))) xs1 vs1 := i1.congr fun a ha => put_other (fun (e : a = x.2) => hit.1 (e ▸ ha))
    have g2 : Items E (put m x.2 (some (E.cell v'))) xs2 vs2 := i3.congr fun a ha => put_other (fun (e : a = x.2) => hit.2 (e ▸ ha))
    exact g1.append (.cons (put_same ..) g2)

omit E in
theorem Chain.at_item {m : Mem} : ∀ {zs1 : List (Ptr × Ptr)} {y : Ptr × Ptr} {zs2 : List (Ptr × Ptr)} {p : Ptr}, Chain m p (zs1 ++ y :: zs2) →
    ∃ n, m y.1 = some (.node n) ∧ n.item = y.2
  | [], _, _, _, h => by obtain ⟨_, n, b1, b2, _⟩ := h; exact ⟨n, b1, b2⟩
  | _ :: zs1, _, _, _, h => by obtain ⟨_, _, _, _, b⟩ := h; exact Chain.at_item (zs1 := zs1) b

/-- Adding an entry to a list.  It may be an entry of the list. -/
theorem listAdd_run {al : Alloc} (hal : Good al) {m : Mem} (hm : Finite m) {list loc : Ptr} {vs : List V} {bs : List Ptr} {w : V}
    (h : Holds E m list vs bs) (hw : m loc = some (E.cell w)) :
    ∃ m' new, listAdd E al list loc m = some ((), m') ∧ Finite m' ∧ Holds E m' list (add E vs w) (new ++ bs) ∧
      (∀ a ∈ new, m a = none) ∧ ∀ a, a ∉ new → a ∉ bs → m' a = m a := by
  have h0 := hm.1
  obtain ⟨n, g1, g2, g3⟩ := h.head h0
  cases vs with
  | nil =>
    have hlp : loc ≠ list := by
      intro e
      rw [e, g1] at hw
      injection hw with hw
      exact E.apart _ _ hw.symm
    obtain ⟨m', x, new, k1, _, _, k⟩ := firstItem_run hal hm (w := w) (mk := copyItem E al loc) h
      (fun n => by rw [copyItem, bind_run (getItem_run E (by rw [put_other hlp, hw]))])
    refine ⟨m', new, ?_, k⟩
    rw [listAdd, bind_run (getNode_run g1), if_pos (g2 rfl), bind_run k1]
    rfl
  | cons v vs =>
    obtain ⟨g3, hp⟩ := g3 (fun h => nomatch h)
    have h' := h
    obtain ⟨xs, h1, h2, h3, h5⟩ := h'
    obtain ⟨y, ys, exs⟩ : ∃ y ys, xs = y :: ys := by
      cases h2 with | @cons x _ xs _ _ _ => exact ⟨x, xs, rfl⟩
    rw [exs] at h1 h2 h3
    obtain ⟨r, k1, k2⟩ := search_run h0 hw h1 h2
    rcases k2 with ⟨xs1, z, xs2, vs1, u, vs2, a1, a2, a3, a4, a5⟩ | ⟨a1, a2⟩
    · -- merged with an entry
      rw [a1] at h1 h2 h3
      rw [a2] at h2
      obtain ⟨s1, s2, s3⟩ := Holds.setAt (v' := E.merge u w) h1 h2 h3 h5 a3
      have hch : Chain m list (xs1 ++ z :: xs2) := by
        rw [← a1] at h1 ⊢
        exact h1.2.1
      obtain ⟨nz, z1, z2⟩ := hch.at_item
      have hz : z.1 ≠ 0 := fun e => by rw [e, h0] at z1; cases z1
      have hz2 : z.2 ≠ 0 := fun e => by rw [e, h0] at s1; cases s1
      refine ⟨_, [], ?_, hm.put hz2 _, by rw [a5]; exact s3, (fun _ h => nomatch h), fun a _ ha => put_other fun e => ha (e ▸ s2)⟩
      rw [listAdd, bind_run (getNode_run g1), if_neg (by rw [g3]; exact hp), g3, bind_run k1, a4, if_neg hz, bind_run (getNode_run z1),
        itemAdd, z2, bind_run (getItem_run E s1), bind_run (getItem_run E hw), setItem_run E s1]
    · -- appended
      have hlb : loc ≠ al m := fun e => by rw [e, (hal m hm.2).2] at hw; cases hw
      obtain ⟨m', x, new, j1, _, _, j⟩ := appendItem_run hal hm (w := w) (mk := copyItem E al loc) h
        (by rw [copyItem, bind_run (getItem_run E (by rw [put_other hlb, hw]))])
      refine ⟨m', new, ?_, a2 ▸ j⟩
      rw [listAdd, bind_run (getNode_run g1), if_neg (by rw [g3]; exact hp), g3, bind_run k1, a1, if_pos rfl, bind_run j1]
      rfl

/-- Adding the entries of another list. -/
theorem addEach_run {al : Alloc} (hal : Good al) {list : Ptr} (cond : V → Bool) : ∀ {ys : List (Ptr × Ptr)} {ws vs : List V} {bs : List Ptr} {iter : Ptr} {m : Mem},
    Finite m → Chain m iter ys → Items E m ys ws → Holds E m list vs bs → (∀ a ∈ ys.map (·.1), a ∉ bs) → (∀ a ∈ ys.map (·.2), a ∉ bs) →
    ∃ m' new, addEach E al cond list iter m = some ((), m') ∧ Finite m' ∧
      Holds E m' list (ws.foldl (fun acc w => if cond w then add E acc w else acc) vs) (new ++ bs) ∧
      (∀ a ∈ new, m a = none) ∧ ∀ a, a ∉ new → a ∉ bs → m' a = m a
  | [], _, vs, bs, iter, m, hm, h, h', hl, _, _ => by
    cases h'
    rw [addEach, show iter = 0 from h]
    exact ⟨m, [], rfl, hm, hl, (fun _ h => nomatch h), fun _ _ _ => rfl⟩
  | y :: ys, _, vs, bs, iter, m, hm, h, h', hl, hd1, hd2 => by
    cases h' with
    | @cons _ w _ ws g hs =>
      obtain ⟨h1, n, h2, h3, h4⟩ := h
      have hp : iter ≠ 0 := fun e => by rw [← h1, e, hm.1] at h2; cases h2
      rw [addEach, if_neg hp, bind_run (getNode_run (h1 ▸ h2)), bind_run (getItem_run E (h3 ▸ g))]
      by_cases hc : cond w = true
      · obtain ⟨m1, new1, k1, k2, k3, k4, k5⟩ := listAdd_run hal hm hl g
        have keep : ∀ a, m a ≠ none → a ∉ bs → a ∉ new1 := fun a ha _ e => ha (k4 a e)
        have hn1 : ∀ a ∈ ys.map (·.1), m1 a = m a ∧ a ∉ new1 := by
          intro a ha
          obtain ⟨n', e⟩ := h4.nodes a ha
          have hb := hd1 a (by simp only [List.map_cons]; exact List.mem_cons_of_mem _ ha)
          have := keep a (by rw [e]; exact fun h => nomatch h) hb
          exact ⟨k5 a this hb, this⟩
        have hn2 : ∀ a ∈ ys.map (·.2), m1 a = m a ∧ a ∉ new1 := by
          intro a ha
          obtain ⟨n', e⟩ := hs.items a ha
          have hb := hd2 a (by simp only [List.map_cons]; exact List.mem_cons_of_mem _ ha)
          have := keep a (by rw [e]; exact fun h => nomatch h) hb
          exact ⟨k5 a this hb, this⟩
        have hy : m1 iter = some (.node n) := by
          have hb := hd1 y.1 (by simp)
          rw [h1, k5 y.1 (keep y.1 (by rw [h2]; exact fun h => nomatch h) hb) hb, h2]
        have c1 : Chain m1 n.next ys := h4.congr fun a ha n' hn' => ⟨n', by rw [(hn1 a ha).1, hn'], rfl, rfl⟩
        have c2 : Items E m1 ys ws := hs.congr fun a ha => (hn2 a ha).1
        obtain ⟨m2, new2, j1, j2, j3, j4, j5⟩ := addEach_run hal cond k2 c1 c2 k3
          (fun a ha e => by
            rcases List.mem_append.mp e with e | e
            · exact (hn1 a ha).2 e
            · exact hd1 a (by simp only [List.map_cons]; exact List.mem_cons_of_mem _ ha) e)
          (fun a ha e => by
            rcases List.mem_append.mp e with e | e
            · exact (hn2 a ha).2 e
            · exact hd2 a (by simp only [List.map_cons]; exact List.mem_cons_of_mem _ ha) e)
        refine ⟨m2, new2 ++ new1, ?_, j2, ?_, ?_, ?_⟩
        · rw [if_pos hc, bind_run (h3 ▸ k1)]
          show (getNode iter >>= fun it => addEach E al cond list it.next) m1 = _
          rw [bind_run (getNode_run hy), j1]
        · rw [List.foldl_cons, if_pos hc, List.append_assoc]
          exact j3
        · intro a ha
          rcases List.mem_append.mp ha with ha | ha
          · by_cases e : a ∈ new1
            · exact k4 a e
            · by_cases e' : a ∈ bs
              · exact absurd (j4 a ha) (k3.alive a (List.mem_append_right _ e'))
              · rw [← k5 a e e']
                exact j4 a ha
          · exact k4 a ha
        · intro a ha hb
          rw [List.mem_append, not_or] at ha
          rw [j5 a ha.1 (by rw [List.mem_append, not_or]; exact ⟨ha.2, hb⟩), k5 a ha.2 hb]
      · obtain ⟨m2, new2, j1, j2, j3, j4, j5⟩ := addEach_run hal cond hm h4 hs hl
          (fun a ha => hd1 a (by simp only [List.map_cons]; exact List.mem_cons_of_mem _ ha))
          (fun a ha => hd2 a (by simp only [List.map_cons]; exact List.mem_cons_of_mem _ ha))
        refine ⟨m2, new2, ?_, j2, ?_, j4, j5⟩
        · rw [if_neg hc]
          show (getNode iter >>= fun it => addEach E al cond list it.next) m = _
          rw [bind_run (getNode_run (h1 ▸ h2)), j1]
        · rw [List.foldl_cons, if_neg hc]
          exact j3

/-- Adding another list. -/
theorem listAddList_run {al : Alloc} (hal : Good al) {m : Mem} (hm : Finite m) {list other : Ptr} {vs ws : List V} {bs cs : List Ptr}
    (h : Holds E m list vs bs) (h' : Holds E m other ws cs) (hd : ∀ a ∈ cs, a ∉ bs) :
    ∃ m' new, listAddList E al list other m = some ((), m') ∧ Finite m' ∧ Holds E m' list (ws.foldl (add E) vs) (new ++ bs) ∧
      (∀ a ∈ new, m a = none) ∧ ∀ a, a ∉ new → a ∉ bs → m' a = m a := by
  obtain ⟨xs, h1, h2, h3, _⟩ := h'
  obtain ⟨n, ⟨g1, g2, _⟩ | g⟩ := h1.head
  · have hx : ∀ a, a ∈ xs.map (·.1) ∨ a ∈ xs.map (·.2) → a ∈ cs := by
      intro a ha
      refine h3.mem_iff.mpr ?_
      cases xs with
      | nil => rcases ha with ha | ha <;> cases ha
      | cons x xs => exact List.mem_append.mpr ha
    obtain ⟨m', new, j1, j⟩ := addEach_run hal (fun _ => true) hm g2 h2 h (fun a ha => hd a (hx a (.inl ha))) (fun a ha => hd a (hx a (.inr ha)))
    exact ⟨m', new, by rw [listAddList, bind_run (getNode_run g1), j1], by simpa using j⟩
  · exact absurd hm.1 g

/-- A new list is empty. -/
theorem listNew_run {al : Alloc} (hal : Good al) {m : Mem} (hm : Finite m) : ∃ m' p, listNew al m = some (p, m') ∧ Finite m' ∧
    Holds E m' p [] [p] ∧ m p = none ∧ ∀ a, a ≠ p → m' a = m a := by
  obtain ⟨a1, a2⟩ := hal m hm.2
  exact ⟨_, _, rfl, hm.put a1 _, ⟨[], ⟨{}, put_same .., rfl⟩, .nil, .refl _, by simp⟩, a2, fun a ha => put_other ha⟩

/-- The compact copy. -/
theorem listCompact_run {al : Alloc} (hal : Good al) {m : Mem} (hm : Finite m) (cond : V → Bool) {list : Ptr} {vs : List V} {bs : List Ptr}
    (h : Holds E m list vs bs) :
    ∃ m' p new, listCompact E al cond list m = some (p, m') ∧ Finite m' ∧
      Holds E m' p (vs.foldl (fun acc w => if cond w then add E acc w else acc) []) new ∧
      (∀ a ∈ new, m a = none) ∧ ∀ a, a ∉ new → m' a = m a := by
  obtain ⟨m1, p, k1, k2, k3, k4, k5⟩ := listNew_run (E := E) hal hm
  have hpb : ∀ a ∈ bs, a ≠ p := fun a ha e => h.alive a ha (e ▸ k4)
  have h' : Holds E m1 list vs bs := h.congr fun a ha => k5 a (hpb a ha)
  obtain ⟨xs, h1, h2, h3, _⟩ := h'
  obtain ⟨n, ⟨g1, g2, _⟩ | g⟩ := h1.head
  · have hx : ∀ a, a ∈ xs.map (·.1) ∨ a ∈ xs.map (·.2) → a ∈ bs := by
      intro a ha
      refine h3.mem_iff.mpr ?_
      cases xs with
      | nil => rcases ha with ha | ha <;> cases ha
      | cons x xs => exact List.mem_append.mpr ha
    obtain ⟨m', new, j1, j2, j3, j4, j5⟩ := addEach_run hal cond k2 g2 h2 k3
      (fun a ha e => hpb a (hx a (.inl ha)) (List.mem_singleton.mp e)) (fun a ha e => hpb a (hx a (.inr ha)) (List.mem_singleton.mp e))
    refine ⟨m', p, new ++ [p], ?_, j2, j3, ?_, ?_⟩
    · rw [listCompact, bind_run k1, bind_run (getNode_run g1), bind_run j1]
      rfl
    · intro a ha
      rcases List.mem_append.mp ha with ha | ha
      · by_cases e : a = p
        · rw [e, k4]
        · rw [← k5 a e]
          exact j4 a ha
      · rw [List.mem_singleton.mp ha, k4]
    · intro a ha
      rw [List.mem_append, not_or, List.mem_singleton] at ha
      rw [j5 a ha.1 (by simpa using ha.2), k5 a ha.2]
  · exact absurd k2.1 g

end

end Ohcount.Mem
