import Verif.MemLists
/-
Histories of calls of the functions of `src/loc.c`: what a program that keeps its pointers sees is what Lean's lists say, whatever addresses
`malloc` returns, and the blocks in use are those of the entries and lists that have not been freed.
-/

namespace Ohcount.Mem

/-! ### The calls -/

/-- A call of a function of `src/loc.c`.  The pointers that the program was given are numbered in the order in which it got them. -/
inductive Call (V : Type) where
  /-- `ohcount_loc_new`, `ohcount_loc_delta_new` -/
  | new (v : V)
  /-- `ohcount_loc_add_loc`, `ohcount_loc_delta_add_loc_delta` -/
  | addTo (i j : Nat)
  /-- `ohcount_loc_free`, `ohcount_loc_delta_free` -/
  | free (i : Nat)
  /-- `ohcount_loc_list_new`, `ohcount_loc_delta_list_new` -/
  | newList
  /-- `ohcount_loc_list_add_loc`, `ohcount_loc_delta_list_add_loc_delta` -/
  | add (l i : Nat)
  /-- `ohcount_loc_list_add_loc` or `ohcount_loc_delta_list_add_loc_delta` with what `ohcount_loc_list_get_loc` or
  `ohcount_loc_delta_list_get_loc_delta` returned, if this is not NULL; the two lists may be the same -/
  | addFound (l : Nat) (lang : String) (o : Nat)
  /-- `ohcount_loc_list_add_loc_list`, `ohcount_loc_delta_list_add_loc_delta_list` -/
  | addList (l o : Nat)
  /-- `ohcount_loc_list_get_loc`, `ohcount_loc_delta_list_get_loc_delta`, and reading what is returned -/
  | get (lang : String) (l : Nat)
  /-- `ohcount_loc_list_code` and the other sums -/
  | sum (f : V → Int) (l : Nat)
  /-- `ohcount_loc_list_new_compact`, `ohcount_loc_delta_list_new_compact` -/
  | compact (l : Nat)
  /-- `ohcount_loc_list_free`, `ohcount_loc_delta_list_free` -/
  | freeList (l : Nat)

/-- What a call returns, pointers apart. -/
inductive Seen (V : Type) where
  | done
  | number (i : Int)
  | found (v : Option V)

/-! ### What the calls mean -/

/-- What a pointer stands for. -/
inductive Obj where
  | loc (v : Loc)
  | delta (v : LocDelta)
  | locs (l : LocList)
  | deltas (l : LocDeltaList)

/-- Entries and their lists: the functions of `Loc.lean`. -/
structure Kind (V : Type) where
  entry : V → Obj
  list : List V → Obj
  unEntry : Obj → Option V
  unList : Obj → Option (List V)
  merge : V → V → V
  add : List V → V → List V
  addList : List V → List V → List V
  get : List V → String → Option V
  sum : (V → Int) → List V → Int
  compact : List V → List V

def locKind : Kind Loc where
  entry := .loc
  list := .locs
  unEntry := fun o => match o with | .loc v => some v | _ => none
  unList := fun o => match o with | .locs v => some v | _ => none
  merge := Loc.addLoc
  add := LocList.addLoc
  addList := LocList.addLocList
  get := LocList.getLoc
  sum := LocList.sumLoop
  compact := LocList.newCompact

def deltaKind : Kind LocDelta where
  entry := .delta
  list := .deltas
  unEntry := fun o => match o with | .delta v => some v | _ => none
  unList := fun o => match o with | .deltas v => some v | _ => none
  merge := LocDelta.addDelta
  add := LocDeltaList.addDelta
  addList := LocDeltaList.addDeltaList
  get := LocDeltaList.getDelta
  sum := LocDeltaList.sumLoop
  compact := LocDeltaList.newCompact

/-- What the pointers stand for; what has been freed stands for nothing. -/
abbrev World := List (Option Obj)

/-- What a call means.  No result: a pointer is used that the program was not given, that has been freed, or that is to something else; or
a list is added to itself. -/
def Kind.step {V : Type} (K : Kind V) (w : World) : Call V → Option (World × Seen V)
  | .new v => some (w ++ [some (K.entry v)], .done)
  | .addTo i j => do
    let a ← w[i]?.join.bind K.unEntry
    let b ← w[j]?.join.bind K.unEntry
    pure (w.set i (some (K.entry (K.merge a b))), .done)
  | .free i => do
    let _ ← w[i]?.join.bind K.unEntry
    pure (w.set i none, .done)
  | .newList => some (w ++ [some (K.list [])], .done)
  | .add l i => do
    let vs ← w[l]?.join.bind K.unList
    let v ← w[i]?.join.bind K.unEntry
    pure (w.set l (some (K.list (K.add vs v))), .done)
  | .addFound l lang o => do
    let vs ← w[l]?.join.bind K.unList
    let us ← w[o]?.join.bind K.unList
    match K.get us lang with
    | none => pure (w, .done)
    | some v => pure (w.set l (some (K.list (K.add vs v))), .done)
  | .addList l o => do
    let vs ← w[l]?.join.bind K.unList
    let us ← w[o]?.join.bind K.unList
    if l = o then none else pure (w.set l (some (K.list (K.addList vs us))), .done)
  | .get lang l => do
    let vs ← w[l]?.join.bind K.unList
    pure (w, .found (K.get vs lang))
  | .sum f l => do
    let vs ← w[l]?.join.bind K.unList
    pure (w, .number (K.sum f vs))
  | .compact l => do
    let vs ← w[l]?.join.bind K.unList
    pure (w ++ [some (K.list (K.compact vs))], .done)
  | .freeList l => do
    let _ ← w[l]?.join.bind K.unList
    pure (w.set l none, .done)

/-- A call of a function for counts or of one for changes. -/
inductive AnyCall where
  | loc (c : Call Loc)
  | delta (c : Call LocDelta)

inductive AnySeen where
  | loc (s : Seen Loc)
  | delta (s : Seen LocDelta)

def World.step (w : World) : AnyCall → Option (World × AnySeen)
  | .loc c => (locKind.step w c).map fun (w, s) => (w, .loc s)
  | .delta c => (deltaKind.step w c).map fun (w, s) => (w, .delta s)

/-- What a history of calls means. -/
def World.run (w : World) : List AnyCall → Option (World × List AnySeen)
  | [] => some (w, [])
  | c :: cs => do
    let (w, s) ← w.step c
    let (w, ss) ← World.run w cs
    pure (w, s :: ss)

/-! ### What the calls do -/

/-- The functions of `src/loc.c` applied to the program's pointers. -/
def callStep {V : Type} (E : Entry V) (cond : V → Bool) (al : Alloc) (ps : List Ptr) : Call V → M (List Ptr × Seen V)
  | .new v => do
    let p ← itemNew E al v
    pure (ps ++ [p], .done)
  | .addTo i j => do
    itemAdd E (← ps[i]?) (← ps[j]?)
    pure (ps, .done)
  | .free i => do
    Mem.free (← ps[i]?)
    pure (ps, .done)
  | .newList => do
    let p ← listNew al
    pure (ps ++ [p], .done)
  | .add l i => do
    listAdd E al (← ps[l]?) (← ps[i]?)
    pure (ps, .done)
  | .addFound l lang o => do
    let p ← listGet E lang (← ps[o]?)
    if p = 0 then pure (ps, .done) else
      listAdd E al (← ps[l]?) p
      pure (ps, .done)
  | .addList l o => do
    listAddList E al (← ps[l]?) (← ps[o]?)
    pure (ps, .done)
  | .get lang l => do
    let p ← listGet E lang (← ps[l]?)
    if p = 0 then pure (ps, .found none) else
      let v ← getItem E p
      pure (ps, .found (some v))
  | .sum f l => do
    let n ← listSum E f (← ps[l]?)
    pure (ps, .number n)
  | .compact l => do
    let p ← listCompact E al cond (← ps[l]?)
    pure (ps ++ [p], .done)
  | .freeList l => do
    listFree (← ps[l]?)
    pure (ps, .done)

def anyStep (al : Alloc) (ps : List Ptr) : AnyCall → M (List Ptr × AnySeen)
  | .loc c => do
    let (ps, s) ← callStep locEntry (fun l => l.total ≠ 0) al ps c
    pure (ps, .loc s)
  | .delta c => do
    let (ps, s) ← callStep deltaEntry LocDelta.isChanged al ps c
    pure (ps, .delta s)

def runCalls (al : Alloc) (ps : List Ptr) : List AnyCall → M (List Ptr × List AnySeen)
  | [] => pure (ps, [])
  | c :: cs => do
    let (ps, s) ← anyStep al ps c
    let (ps, ss) ← runCalls al ps cs
    pure (ps, s :: ss)

/-! ### What is in memory -/

/-- `p` points to `o`, which consists of the blocks `bs`. -/
def Rep (m : Mem) (p : Ptr) : Obj → List Ptr → Prop
  | .loc v, bs => m p = some (.loc v) ∧ bs = [p]
  | .delta v, bs => m p = some (.delta v) ∧ bs = [p]
  | .locs l, bs => Holds locEntry m p l bs
  | .deltas l, bs => Holds deltaEntry m p l bs

theorem Rep.alive {m : Mem} {p : Ptr} {o : Obj} {bs : List Ptr} (h : Rep m p o bs) : ∀ a ∈ bs, m a ≠ none := by
  cases o with
  | loc v => obtain ⟨h1, h2⟩ := h; intro a ha; rw [h2, List.mem_singleton] at ha; rw [ha, h1]; exact fun h => nomatch h
  | delta v => obtain ⟨h1, h2⟩ := h; intro a ha; rw [h2, List.mem_singleton] at ha; rw [ha, h1]; exact fun h => nomatch h
  | locs l => exact Holds.alive h
  | deltas l => exact Holds.alive h

theorem Rep.congr {m m' : Mem} {p : Ptr} {o : Obj} {bs : List Ptr} (h : Rep m p o bs) (g : ∀ a ∈ bs, m' a = m a) : Rep m' p o bs := by
  cases o with
  | loc v => obtain ⟨h1, h2⟩ := h; exact ⟨by rw [g p (by simp [h2]), h1], h2⟩
  | delta v => obtain ⟨h1, h2⟩ := h; exact ⟨by rw [g p (by simp [h2]), h1], h2⟩
  | locs l => exact Holds.congr h g
  | deltas l => exact Holds.congr h g

theorem Rep.nodup {m : Mem} {p : Ptr} {o : Obj} {bs : List Ptr} (h : Rep m p o bs) : bs.Nodup := by
  cases o with
  | loc v => rw [h.2]; simp
  | delta v => rw [h.2]; simp
  | locs l => obtain ⟨_, _, _, _, h⟩ := h; exact h
  | deltas l => obtain ⟨_, _, _, _, h⟩ := h; exact h

/-- The number of blocks of an entry or a list: one for an entry, one for an empty list, two for each entry of a list that is not empty. -/
def Obj.size : Obj → Nat
  | .loc _ => 1
  | .delta _ => 1
  | .locs l => if l.isEmpty then 1 else 2 * l.length
  | .deltas l => if l.isEmpty then 1 else 2 * l.length

theorem Rep.size {m : Mem} {p : Ptr} {o : Obj} {bs : List Ptr} (h : Rep m p o bs) : bs.length = o.size := by
  cases o with
  | loc v => rw [h.2]; rfl
  | delta v => rw [h.2]; rfl
  | locs l => exact Holds.count h
  | deltas l => exact Holds.count h

/-- The memory is that of the objects of the world, and nothing else. -/
structure Inv (w : World) (ps : List Ptr) (m : Mem) (fp : Nat → List Ptr) : Prop where
  len : ps.length = w.length
  fin : Finite m
  rep : ∀ i o, w[i]?.join = some o → ∃ p, ps[i]? = some p ∧ Rep m p o (fp i)
  gone : ∀ i, w[i]?.join = none → fp i = []
  apart : ∀ i j a, a ∈ fp i → a ∈ fp j → i = j
  all : ∀ a, m a ≠ none → ∃ i, a ∈ fp i

theorem Inv.alive {w : World} {ps : List Ptr} {m : Mem} {fp : Nat → List Ptr} (h : Inv w ps m fp) {i : Nat} {a : Ptr} (ha : a ∈ fp i) : m a ≠ none := by
  cases ho : w[i]?.join with
  | none => rw [h.gone i ho] at ha; cases ha
  | some o =>
    obtain ⟨p, _, hr⟩ := h.rep i o ho
    exact hr.alive a ha

theorem join_set {w : World} {i j : Nat} {x : Option Obj} (hi : i < w.length) : (w.set i x)[j]?.join = if j = i then x else w[j]?.join := by
  rw [List.getElem?_set]
  by_cases e : i = j
  · rw [if_pos e, if_pos e.symm, if_pos hi]; rfl
  · rw [if_neg e, if_neg (Ne.symm e)]

theorem join_append {w : World} {j : Nat} {x : Option Obj} : (w ++ [x])[j]?.join = if j = w.length then x else w[j]?.join := by
  by_cases e : j = w.length
  · rw [if_pos e, e, List.getElem?_append_right (Nat.le_refl _), Nat.sub_self]; rfl
  · rw [if_neg e]
    by_cases h : j < w.length
    · rw [List.getElem?_append_left h]
    · rw [List.getElem?_eq_none (by rw [List.length_append, List.length_singleton]; omega), List.getElem?_eq_none (by omega)]

theorem lt_of_join {w : World} {i : Nat} {o : Obj} (h : w[i]?.join = some o) : i < w.length := by
  refine Nat.lt_of_not_le fun hn => ?_
  rw [List.getElem?_eq_none hn] at h
  cases h

/-- An object changes; it may get new blocks. -/
theorem Inv.change {w : World} {ps : List Ptr} {m m' : Mem} {fp : Nat → List Ptr} (h : Inv w ps m fp) {i : Nat} {o o' : Obj} {p : Ptr} {new : List Ptr}
    (hi : w[i]?.join = some o) (hp : ps[i]? = some p) (hm : Finite m') (hr : Rep m' p o' (new ++ fp i)) (hn : ∀ a ∈ new, m a = none)
    (hf : ∀ a, a ∉ new → a ∉ fp i → m' a = m a) : ∃ fp', Inv (w.set i (some o')) ps m' fp' := by
  have hl := lt_of_join hi
  refine ⟨fun k => if k = i then new ++ fp i else fp k, ?_, hm, ?_, ?_, ?_, ?_⟩
  · rw [List.length_set, h.len]
  · intro j x hj
    rw [join_set hl] at hj
    by_cases e : j = i
    · rw [if_pos e] at hj ⊢
      injection hj with hj
      exact ⟨p, e ▸ hp, hj ▸ hr⟩
    · rw [if_neg e] at hj ⊢
      obtain ⟨q, h1, h2⟩ := h.rep j x hj
      exact ⟨q, h1, h2.congr fun a ha => hf a (fun e' => h.alive ha (hn a e')) fun e' => e (h.apart j i a ha e')⟩
  · intro j hj
    rw [join_set hl] at hj
    by_cases e : j = i
    · rw [if_pos e] at hj; cases hj
    · rw [if_neg e] at hj ⊢; exact h.gone j hj
  · intro j k a ha hb
    have key : ∀ {j k : Nat}, j = i → k ≠ i → a ∈ new ++ fp i → a ∈ fp k → False := by
      intro j k _ e2 ha hb
      rcases List.mem_append.mp ha with ha | ha
      · exact h.alive hb (hn a ha)
      · exact e2 (h.apart k i a hb ha)
    by_cases e1 : j = i
    · rw [if_pos e1] at ha
      by_cases e2 : k = i
      · rw [e1, e2]
      · rw [if_neg e2] at hb; exact (key e1 e2 ha hb).elim
    · rw [if_neg e1] at ha
      by_cases e2 : k = i
      · rw [if_pos e2] at hb; exact (key e2 e1 hb ha).elim
      · rw [if_neg e2] at hb; exact h.apart j k a ha hb
  · intro a ha
    by_cases e1 : a ∈ new ++ fp i
    · exact ⟨i, by rw [if_pos rfl]; exact e1⟩
    · rw [List.mem_append, not_or] at e1
      rw [hf a e1.1 e1.2] at ha
      obtain ⟨k, hk⟩ := h.all a ha
      have e2 : k ≠ i := fun e => e1.2 (e ▸ hk)
      exact ⟨k, by rw [if_neg e2]; exact hk⟩

/-- A new object. -/
theorem Inv.create {w : World} {ps : List Ptr} {m m' : Mem} {fp : Nat → List Ptr} (h : Inv w ps m fp) {o : Obj} {p : Ptr} {new : List Ptr}
    (hm : Finite m') (hr : Rep m' p o new) (hn : ∀ a ∈ new, m a = none) (hf : ∀ a, a ∉ new → m' a = m a) :
    ∃ fp', Inv (w ++ [some o]) (ps ++ [p]) m' fp' := by
  refine ⟨fun k => if k = w.length then new else fp k, ?_, hm, ?_, ?_, ?_, ?_⟩
  · rw [List.length_append, List.length_append, h.len]; rfl
  · intro j x hj
    rw [join_append] at hj
    by_cases e : j = w.length
    · rw [if_pos e] at hj ⊢
      injection hj with hj
      refine ⟨p, ?_, hj ▸ hr⟩
      rw [e, ← h.len, List.getElem?_append_right (Nat.le_refl _), Nat.sub_self]; rfl
    · rw [if_neg e] at hj ⊢
      obtain ⟨q, h1, h2⟩ := h.rep j x hj
      refine ⟨q, ?_, h2.congr fun a ha => hf a fun e' => h.alive ha (hn a e')⟩
      rw [List.getElem?_append_left (h.len ▸ lt_of_join hj), h1]
  · intro j hj
    rw [join_append] at hj
    by_cases e : j = w.length
    · rw [if_pos e] at hj; cases hj
    · rw [if_neg e] at hj ⊢; exact h.gone j hj
  · intro j k a ha hb
    by_cases e1 : j = w.length
    · rw [if_pos e1] at ha
      by_cases e2 : k = w.length
      · rw [e1, e2]
      · rw [if_neg e2] at hb; exact absurd (hn a ha) (h.alive hb)
    · rw [if_neg e1] at ha
      by_cases e2 : k = w.length
      · rw [if_pos e2] at hb; exact absurd (hn a hb) (h.alive ha)
      · rw [if_neg e2] at hb; exact h.apart j k a ha hb
  · intro a ha
    by_cases e1 : a ∈ new
    · exact ⟨w.length, by rw [if_pos rfl]; exact e1⟩
    · rw [hf a e1] at ha
      obtain ⟨k, hk⟩ := h.all a ha
      have e2 : k ≠ w.length := fun e => by
        rw [h.gone k (by rw [e, List.getElem?_eq_none (Nat.le_refl _)]; rfl)] at hk
        cases hk
      exact ⟨k, by rw [if_neg e2]; exact hk⟩

/-- An object goes. -/
theorem Inv.remove {w : World} {ps : List Ptr} {m m' : Mem} {fp : Nat → List Ptr} (h : Inv w ps m fp) {i : Nat} {o : Obj}
    (hi : w[i]?.join = some o) (h0 : m' 0 = none) (hn : ∀ a ∈ fp i, m' a = none) (hf : ∀ a ∉ fp i, m' a = m a) :
    ∃ fp', Inv (w.set i none) ps m' fp' := by
  have hl := lt_of_join hi
  refine ⟨fun k => if k = i then [] else fp k, ?_, ⟨h0, ?_⟩, ?_, ?_, ?_, ?_⟩
  · rw [List.length_set, h.len]
  · obtain ⟨used, hu⟩ := h.fin.2
    refine ⟨used, fun a ha => ?_⟩
    by_cases e : a ∈ fp i
    · exact absurd (hn a e) ha
    · exact hu a (hf a e ▸ ha)
  · intro j x hj
    rw [join_set hl] at hj
    by_cases e : j = i
    · rw [if_pos e] at hj; cases hj
    · rw [if_neg e] at hj ⊢
      obtain ⟨q, h1, h2⟩ := h.rep j x hj
      exact ⟨q, h1, h2.congr fun a ha => hf a fun e' => e (h.apart j i a ha e')⟩
  · intro j hj
    rw [join_set hl] at hj
    by_cases e : j = i
    · rw [if_pos e]
    · rw [if_neg e] at hj ⊢; exact h.gone j hj
  · intro j k a ha hb
    by_cases e1 : j = i
    · rw [if_pos e1] at ha; cases ha
    · rw [if_neg e1] at ha
      by_cases e2 : k = i
      · rw [if_pos e2] at hb; cases hb
      · rw [if_neg e2] at hb; exact h.apart j k a ha hb
  · intro a ha
    by_cases e1 : a ∈ fp i
    · exact absurd (hn a e1) ha
    · rw [hf a e1] at ha
      obtain ⟨k, hk⟩ := h.all a ha
      have e2 : k ≠ i := fun e => e1 (e ▸ hk)
      exact ⟨k, by rw [if_neg e2]; exact hk⟩

/-! ### One call -/

/-- The functions of `Loc.lean` are those of an entry in memory. -/
structure Fits {V : Type} (K : Kind V) (E : Entry V) (cond : V → Bool) : Prop where
  repE : ∀ {m p v bs}, Rep m p (K.entry v) bs ↔ m p = some (E.cell v) ∧ bs = [p]
  repL : ∀ {m p vs bs}, Rep m p (K.list vs) bs ↔ Holds E m p vs bs
  unE : ∀ {o v}, K.unEntry o = some v → o = K.entry v
  unL : ∀ {o vs}, K.unList o = some vs → o = K.list vs
  merge : ∀ a b, K.merge a b = E.merge a b
  add : ∀ vs v, K.add vs v = Mem.add E vs v
  addList : ∀ vs us, K.addList vs us = us.foldl (Mem.add E) vs
  get : ∀ vs lang, K.get vs lang = find E lang vs
  sum : ∀ f vs, K.sum f vs = vs.foldl (fun s e => s + f e) 0
  compact : ∀ vs, K.compact vs = vs.foldl (fun acc v => if cond v then Mem.add E acc v else acc) []

section
variable {V : Type} {K : Kind V} {E : Entry V} {cond : V → Bool} (F : Fits K E cond) {w : World} {ps : List Ptr} {m : Mem} {fp : Nat → List Ptr}
include F

theorem Inv.entry (h : Inv w ps m fp) {i : Nat} {v : V} (hi : w[i]?.join.bind K.unEntry = some v) :
    ∃ p, w[i]?.join = some (K.entry v) ∧ ps[i]? = some p ∧ m p = some (E.cell v) ∧ fp i = [p] := by
  obtain ⟨o, h1, h2⟩ := Option.bind_eq_some_iff.mp hi
  rw [F.unE h2] at h1
  obtain ⟨p, h3, h4⟩ := h.rep i _ h1
  exact ⟨p, h1, h3, F.repE.mp h4⟩

theorem Inv.list (h : Inv w ps m fp) {i : Nat} {vs : List V} (hi : w[i]?.join.bind K.unList = some vs) :
    ∃ p, w[i]?.join = some (K.list vs) ∧ ps[i]? = some p ∧ Holds E m p vs (fp i) := by
  obtain ⟨o, h1, h2⟩ := Option.bind_eq_some_iff.mp hi
  rw [F.unL h2] at h1
  obtain ⟨p, h3, h4⟩ := h.rep i _ h1
  exact ⟨p, h1, h3, F.repL.mp h4⟩

omit F in
theorem ptr_run {i : Nat} {p : Ptr} (h : ps[i]? = some p) : (liftM ps[i]? : M Ptr) m = some (p, m) := by
  rw [h]; rfl

theorem callStep_run {al : Alloc} (hal : Good al) (h : Inv w ps m fp) {c : Call V} {w' : World} {s : Seen V} (hc : K.step w c = some (w', s)) :
    ∃ ps' m' fp', callStep E cond al ps c m = some ((ps', s), m') ∧ Inv w' ps' m' fp' := by
  cases c with
  | new v =>
    injection hc with hc
    injection hc with e1 e2
    subst e1 e2
    obtain ⟨a1, a2⟩ := hal m h.fin.2
    obtain ⟨fp', hi⟩ := h.create (o := K.entry v) (p := al m) (new := [al m]) (h.fin.put a1 (some (E.cell v))) (F.repE.mpr ⟨put_same .., rfl⟩)
      (fun a ha => by rw [List.mem_singleton.mp ha]; exact a2) (fun a ha => put_other (by simpa using ha))
    exact ⟨_, _, fp', rfl, hi⟩
  | addTo i j =>
    obtain ⟨a, ha, hc⟩ := Option.bind_eq_some_iff.mp hc
    obtain ⟨b, hb, hc⟩ := Option.bind_eq_some_iff.mp hc
    injection hc with hc
    injection hc with e1 e2
    subst e1 e2
    obtain ⟨p, p1, p2, p3, p4⟩ := h.entry F ha
    obtain ⟨q, q1, q2, q3, q4⟩ := h.entry F hb
    have hp : p ≠ 0 := fun e => by rw [e, h.fin.1] at p3; cases p3
    obtain ⟨fp', hi⟩ := h.change (o' := K.entry (K.merge a b)) (new := []) (m' := put m p (some (E.cell (K.merge a b)))) p1 p2 (h.fin.put hp _)
      (F.repE.mpr ⟨put_same .., p4⟩) (fun _ h => nomatch h) (fun x _ hx => put_other (by rw [p4] at hx; simpa using hx))
    refine ⟨ps, _, fp', ?_, hi⟩
    rw [callStep, bind_run (ptr_run p2), bind_run (ptr_run q2),
      bind_run (show itemAdd E p q m = some ((), _) by rw [itemAdd, bind_run (getItem_run E p3), bind_run (getItem_run E q3), setItem_run E p3]), F.merge]
    rfl
  | free i =>
    obtain ⟨a, ha, hc⟩ := Option.bind_eq_some_iff.mp hc
    injection hc with hc
    injection hc with e1 e2
    subst e1 e2
    obtain ⟨p, p1, p2, p3, p4⟩ := h.entry F ha
    have hp : p ≠ 0 := fun e => by rw [e, h.fin.1] at p3; cases p3
    obtain ⟨fp', hi⟩ := h.remove (m' := put m p none) p1 (by rw [put_other (Ne.symm hp), h.fin.1])
      (fun x hx => by rw [p4, List.mem_singleton] at hx; rw [hx]; exact put_same ..) (fun x hx => put_other (by rw [p4] at hx; simpa using hx))
    refine ⟨ps, _, fp', ?_, hi⟩
    rw [callStep, bind_run (ptr_run p2), bind_run (free_run h.fin.1 p3)]
    rfl
  | newList =>
    injection hc with hc
    injection hc with e1 e2
    subst e1 e2
    obtain ⟨m', p, k1, k2, k3, k4, k5⟩ := listNew_run (E := E) hal h.fin
    obtain ⟨fp', hi⟩ := h.create (o := K.list []) k2 (F.repL.mpr k3) (fun a ha => by rw [List.mem_singleton.mp ha]; exact k4)
      (fun a ha => k5 a (by simpa using ha))
    refine ⟨_, _, fp', ?_, hi⟩
    rw [callStep, bind_run k1]
    rfl
  | add l i =>
    obtain ⟨vs, ha, hc⟩ := Option.bind_eq_some_iff.mp hc
    obtain ⟨v, hb, hc⟩ := Option.bind_eq_some_iff.mp hc
    injection hc with hc
    injection hc with e1 e2
    subst e1 e2
    obtain ⟨p, p1, p2, p3⟩ := h.list F ha
    obtain ⟨q, q1, q2, q3, q4⟩ := h.entry F hb
    obtain ⟨m', new, k1, k2, k3, k4, k5⟩ := listAdd_run hal h.fin p3 q3
    obtain ⟨fp', hi⟩ := h.change p1 p2 k2 (F.repL.mpr (F.add vs v ▸ k3)) k4 k5
    refine ⟨_, _, fp', ?_, hi⟩
    rw [callStep, bind_run (ptr_run p2), bind_run (ptr_run q2), bind_run k1]
    rfl
  | addFound l lang o =>
    obtain ⟨vs, ha, hc⟩ := Option.bind_eq_some_iff.mp hc
    obtain ⟨us, hb, hc⟩ := Option.bind_eq_some_iff.mp hc
    obtain ⟨p, p1, p2, p3⟩ := h.list F ha
    obtain ⟨q, q1, q2, q3⟩ := h.list F hb
    obtain ⟨r, r1, r2⟩ := listGet_run (lang := lang) h.fin.1 q3
    rw [F.get] at hc
    rw [callStep, bind_run (ptr_run q2), bind_run r1]
    cases hf : find E lang us with
    | none =>
      rw [hf] at hc r2
      injection hc with hc
      injection hc with e1 e2
      subst e1 e2
      rw [if_pos r2]
      exact ⟨ps, m, fp, rfl, h⟩
    | some v =>
      rw [hf] at hc r2
      injection hc with hc
      injection hc with e1 e2
      subst e1 e2
      have hr : r ≠ 0 := fun e => by rw [e, h.fin.1] at r2; cases r2.1
      obtain ⟨m', new, k1, k2, k3, k4, k5⟩ := listAdd_run hal h.fin p3 r2.1
      obtain ⟨fp', hi⟩ := h.change p1 p2 k2 (F.repL.mpr (F.add vs v ▸ k3)) k4 k5
      refine ⟨_, _, fp', ?_, hi⟩
      rw [if_neg hr, bind_run (ptr_run p2), bind_run k1]
      rfl
  | addList l o =>
    obtain ⟨vs, ha, hc⟩ := Option.bind_eq_some_iff.mp hc
    obtain ⟨us, hb, hc⟩ := Option.bind_eq_some_iff.mp hc
    obtain ⟨p, p1, p2, p3⟩ := h.list F ha
    obtain ⟨q, q1, q2, q3⟩ := h.list F hb
    by_cases e : l = o
    · rw [if_pos e] at hc; cases hc
    rw [if_neg e] at hc
    injection hc with hc
    injection hc with e1 e2
    subst e1 e2
    obtain ⟨m', new, k1, k2, k3, k4, k5⟩ := listAddList_run hal h.fin p3 q3 (fun a ha hb => e (h.apart l o a hb ha))
    obtain ⟨fp', hi⟩ := h.change p1 p2 k2 (F.repL.mpr (F.addList vs us ▸ k3)) k4 k5
    refine ⟨_, _, fp', ?_, hi⟩
    rw [callStep, bind_run (ptr_run p2), bind_run (ptr_run q2), bind_run k1]
    rfl
  | get lang l =>
    obtain ⟨vs, ha, hc⟩ := Option.bind_eq_some_iff.mp hc
    obtain ⟨q, q1, q2, q3⟩ := h.list F ha
    obtain ⟨r, r1, r2⟩ := listGet_run (lang := lang) h.fin.1 q3
    rw [F.get] at hc
    injection hc with hc
    injection hc with e1 e2
    subst e1 e2
    refine ⟨ps, m, fp, ?_, h⟩
    rw [callStep, bind_run (ptr_run q2), bind_run r1]
    cases hf : find E lang vs with
    | none =>
      rw [hf] at r2
      rw [if_pos r2]
      rfl
    | some v =>
      rw [hf] at r2
      have hr : r ≠ 0 := fun e => by rw [e, h.fin.1] at r2; cases r2.1
      rw [if_neg hr, bind_run (getItem_run E r2.1)]
      rfl
  | sum f l =>
    obtain ⟨vs, ha, hc⟩ := Option.bind_eq_some_iff.mp hc
    obtain ⟨q, q1, q2, q3⟩ := h.list F ha
    rw [F.sum] at hc
    injection hc with hc
    injection hc with e1 e2
    subst e1 e2
    refine ⟨ps, m, fp, ?_, h⟩
    rw [callStep, bind_run (ptr_run q2), bind_run (listSum_run h.fin.1 q3)]
    rfl
  | compact l =>
    obtain ⟨vs, ha, hc⟩ := Option.bind_eq_some_iff.mp hc
    obtain ⟨q, q1, q2, q3⟩ := h.list F ha
    injection hc with hc
    injection hc with e1 e2
    subst e1 e2
    obtain ⟨m', p, new, k1, k2, k3, k4, k5⟩ := listCompact_run hal h.fin cond q3
    obtain ⟨fp', hi⟩ := h.create k2 (F.repL.mpr (F.compact vs ▸ k3)) k4 k5
    refine ⟨_, _, fp', ?_, hi⟩
    rw [callStep, bind_run (ptr_run q2), bind_run k1]
    rfl
  | freeList l =>
    obtain ⟨vs, ha, hc⟩ := Option.bind_eq_some_iff.mp hc
    obtain ⟨q, q1, q2, q3⟩ := h.list F ha
    injection hc with hc
    injection hc with e1 e2
    subst e1 e2
    obtain ⟨m', k1, k2, k3, k4⟩ := listFree_run h.fin.1 q3
    obtain ⟨fp', hi⟩ := h.remove q1 k2 k3 k4
    refine ⟨_, _, fp', ?_, hi⟩
    rw [callStep, bind_run (ptr_run q2), bind_run k1]
    rfl

end

/-! ### Histories -/

theorem addFirst_loc : ∀ (vs : LocList) (v : Loc), LocList.addLoc vs v = addFirst locEntry vs v
  | [], _ => rfl
  | x :: vs, v => by rw [LocList.addLoc, addFirst, addFirst_loc vs v]; rfl

theorem add_loc (vs : LocList) (v : Loc) : LocList.addLoc vs v = add locEntry vs v := by
  cases vs with
  | nil => rfl
  | cons x vs => exact addFirst_loc (x :: vs) v

theorem add_delta (vs : LocDeltaList) (v : LocDelta) : LocDeltaList.addDelta vs v = add deltaEntry vs v := by
  cases vs with
  | nil => rfl
  | cons x vs => rfl

theorem get_loc (lang : String) : ∀ vs : LocList, vs.getLoc lang = find locEntry lang vs
  | [] => rfl
  | x :: vs => by rw [LocList.getLoc, find, get_loc lang vs]; rfl

theorem get_delta (lang : String) : ∀ vs : LocDeltaList, vs.getDelta lang = find deltaEntry lang vs
  | [] => rfl
  | x :: vs => by rw [LocDeltaList.getDelta, find, get_delta lang vs]; rfl

theorem fitsLoc : Fits locKind locEntry (fun l => l.total ≠ 0) where
  repE := Iff.rfl
  repL := Iff.rfl
  unE := by intro o v h; cases o <;> first | cases h; rfl | cases h
  unL := by intro o v h; cases o <;> first | cases h; rfl | cases h
  merge _ _ := rfl
  add := add_loc
  addList vs us := by
    show us.foldl LocList.addLoc vs = _
    rw [show LocList.addLoc = add locEntry from funext fun a => funext fun b => add_loc a b]
  get vs lang := get_loc lang vs
  sum _ _ := rfl
  compact vs := by
    show LocList.newCompact vs = _
    rw [LocList.newCompact, show LocList.addLoc = add locEntry from funext fun a => funext fun b => add_loc a b]
    simp only [decide_eq_true_eq]

theorem fitsDelta : Fits deltaKind deltaEntry LocDelta.isChanged where
  repE := Iff.rfl
  repL := Iff.rfl
  unE := by intro o v h; cases o <;> first | cases h; rfl | cases h
  unL := by intro o v h; cases o <;> first | cases h; rfl | cases h
  merge _ _ := rfl
  add := add_delta
  addList vs us := by
    show us.foldl LocDeltaList.addDelta vs = _
    rw [show LocDeltaList.addDelta = add deltaEntry from funext fun a => funext fun b => add_delta a b]
  get vs lang := get_delta lang vs
  sum _ _ := rfl
  compact vs := by
    show LocDeltaList.newCompact vs = _
    rw [LocDeltaList.newCompact, show LocDeltaList.addDelta = add deltaEntry from funext fun a => funext fun b => add_delta a b]

theorem anyStep_run {al : Alloc} (hal : Good al) {w w' : World} {ps : List Ptr} {m : Mem} {fp : Nat → List Ptr} (h : Inv w ps m fp) {c : AnyCall} {s : AnySeen}
    (hc : w.step c = some (w', s)) : ∃ ps' m' fp', anyStep al ps c m = some ((ps', s), m') ∧ Inv w' ps' m' fp' := by
  cases c with
  | loc c =>
    obtain ⟨⟨w1, s1⟩, h1, h2⟩ := Option.map_eq_some_iff.mp hc
    injection h2 with e1 e2
    subst e1 e2
    obtain ⟨ps', m', fp', k1, k2⟩ := callStep_run fitsLoc hal h h1
    exact ⟨ps', m', fp', by rw [anyStep, bind_run k1]; rfl, k2⟩
  | delta c =>
    obtain ⟨⟨w1, s1⟩, h1, h2⟩ := Option.map_eq_some_iff.mp hc
    injection h2 with e1 e2
    subst e1 e2
    obtain ⟨ps', m', fp', k1, k2⟩ := callStep_run fitsDelta hal h h1
    exact ⟨ps', m', fp', by rw [anyStep, bind_run k1]; rfl, k2⟩

theorem runCalls_run {al : Alloc} (hal : Good al) : ∀ {cs : List AnyCall} {w w' : World} {ps : List Ptr} {m : Mem} {fp : Nat → List Ptr} {ss : List AnySeen},
    Inv w ps m fp → w.run cs = some (w', ss) → ∃ ps' m' fp', runCalls al ps cs m = some ((ps', ss), m') ∧ Inv w' ps' m' fp'
  | [], w, w', ps, m, fp, ss, h, hc => by
    injection hc with hc
    injection hc with e1 e2
    subst e1 e2
    exact ⟨ps, m, fp, rfl, h⟩
  | c :: cs, w, w', ps, m, fp, ss, h, hc => by
    obtain ⟨⟨w1, s1⟩, h1, hc⟩ := Option.bind_eq_some_iff.mp hc
    obtain ⟨⟨w2, s2⟩, h2, hc⟩ := Option.bind_eq_some_iff.mp hc
    injection hc with hc
    injection hc with e1 e2
    subst e1 e2
    obtain ⟨ps1, m1, fp1, k1, k2⟩ := anyStep_run hal h h1
    obtain ⟨ps2, m2, fp2, j1, j2⟩ := runCalls_run hal k2 h2
    exact ⟨ps2, m2, fp2, by rw [runCalls, bind_run k1]; dsimp only; rw [bind_run j1]; rfl, j2⟩

/-- The number of blocks of all objects that have not been freed. -/
def World.size (w : World) : Nat := (w.map fun o => match o with | some o => o.size | none => 0).sum

/-- The blocks in use are `bs`. -/
def InUse (m : Mem) (bs : List Ptr) : Prop := bs.Nodup ∧ ∀ a, m a ≠ none ↔ a ∈ bs

theorem blocks_nodup (fp : Nat → List Ptr) (h1 : ∀ i, (fp i).Nodup) (h2 : ∀ i j a, a ∈ fp i → a ∈ fp j → i = j) : ∀ n, ((List.range n).flatMap fp).Nodup
  | 0 => by simp
  | n + 1 => by
    rw [List.range_succ, List.flatMap_append, List.nodup_append]
    refine ⟨blocks_nodup fp h1 h2 n, by simpa using h1 n, ?_⟩
    intro a ha b hb e
    rw [List.mem_flatMap] at ha
    obtain ⟨i, hi, ha⟩ := ha
    have hb : b ∈ fp n := by simpa using hb
    have := h2 i n a ha (e ▸ hb)
    rw [List.mem_range] at hi
    omega

theorem blocks_length (fp : Nat → List Ptr) (f : Nat → Nat) : ∀ n, (∀ i, i < n → (fp i).length = f i) → ((List.range n).flatMap fp).length = ((List.range n).map f).sum
  | 0, _ => rfl
  | n + 1, h => by
    rw [List.range_succ, List.flatMap_append, List.length_append, blocks_length fp f n fun i hi => h i (by omega), List.map_append, List.sum_append]
    simp [h n (by omega)]

theorem Inv.inUse {w : World} {ps : List Ptr} {m : Mem} {fp : Nat → List Ptr} (h : Inv w ps m fp) : ∃ bs, InUse m bs ∧ bs.length = w.size := by
  have hn : ∀ i, (fp i).Nodup := by
    intro i
    cases ho : w[i]?.join with
    | none => rw [h.gone i ho]; simp
    | some o => obtain ⟨p, _, hr⟩ := h.rep i o ho; exact hr.nodup
  have hl : ∀ i, (fp i).length = match w[i]?.join with | some o => o.size | none => 0 := by
    intro i
    cases ho : w[i]?.join with
    | none => rw [h.gone i ho]; rfl
    | some o => obtain ⟨p, _, hr⟩ := h.rep i o ho; exact hr.size
  refine ⟨(List.range w.length).flatMap fp, ⟨blocks_nodup fp hn h.apart _, fun a => ⟨fun ha => ?_, fun ha => ?_⟩⟩, ?_⟩
  · obtain ⟨i, hi⟩ := h.all a ha
    refine List.mem_flatMap.mpr ⟨i, List.mem_range.mpr (Nat.lt_of_not_le fun hn => ?_), hi⟩
    rw [h.gone i (by rw [List.getElem?_eq_none hn]; rfl)] at hi
    cases hi
  · obtain ⟨i, _, hi⟩ := List.mem_flatMap.mp ha
    exact h.alive hi
  · rw [blocks_length fp _ _ fun i _ => hl i, World.size]
    congr 1
    refine List.ext_getElem? fun i => ?_
    rw [List.getElem?_map, List.getElem?_map]
    by_cases hi : i < w.length
    · rw [List.getElem?_range hi, List.getElem?_eq_getElem hi, Option.map_some, Option.map_some, List.getElem?_eq_getElem hi]
      rfl
    · rw [List.getElem?_eq_none (by simpa using hi), List.getElem?_eq_none (by omega)]
      rfl

theorem Inv.start : Inv [] [] (fun _ => none) fun _ => [] :=
  ⟨rfl, ⟨rfl, [], fun _ h => absurd rfl h⟩, (fun _ _ h => nomatch h), fun _ _ => rfl, (fun _ _ _ h => nomatch h), fun _ h => absurd rfl h⟩

/-- C73: histories of calls of the functions of `src/loc.c` that use what they were given and have not freed. -/
theorem C73_lists {al : Alloc} (hal : Good al) {cs : List AnyCall} {w : World} {ss : List AnySeen} (h : World.run [] cs = some (w, ss)) :
    ∃ ps m, runCalls al [] cs (fun _ => none) = some ((ps, ss), m) ∧ ∃ bs, InUse m bs ∧ bs.length = w.size := by
  obtain ⟨ps, m, fp, h1, h2⟩ := runCalls_run hal Inv.start h
  exact ⟨ps, m, h1, h2.inUse⟩

/-- C73: when all has been freed, no block is in use. -/
theorem C73_noLeak {al : Alloc} (hal : Good al) {cs : List AnyCall} {w : World} {ss : List AnySeen} (h : World.run [] cs = some (w, ss))
    (hw : ∀ o ∈ w, o = none) : ∃ ps, runCalls al [] cs (fun _ => none) = some ((ps, ss), fun _ => none) := by
  obtain ⟨ps, m, h1, bs, ⟨_, h2⟩, h3⟩ := C73_lists hal h
  have h0 : w.size = 0 := by
    clear h h3
    induction w with
    | nil => rfl
    | cons o w ih =>
      have e : o = none := hw o (by simp)
      subst e
      rw [World.size, List.map_cons, List.sum_cons, Nat.zero_add]
      exact ih fun o ho => hw o (List.mem_cons_of_mem _ ho)
  have hb : bs = [] := List.eq_nil_of_length_eq_zero (h3.trans h0)
  refine ⟨ps, ?_⟩
  rw [h1]
  congr
  funext a
  have := h2 a
  rw [hb] at this
  by_cases e : m a = none
  · exact e
  · exact absurd (this.mp e) (fun h => nomatch h)

/-- There are such allocators. -/
theorem good_exists : ∃ al, Good al := by
  have key : ∀ m : Mem, ∃ p, (∃ used : List Ptr, ∀ a, m a ≠ none → a ∈ used) → p ≠ 0 ∧ m p = none := by
    intro m
    by_cases h : ∃ used : List Ptr, ∀ a, m a ≠ none → a ∈ used
    · obtain ⟨used, hu⟩ := h
      have hs : ∀ (l : List Nat), ∀ a ∈ l, a ≤ l.sum := by
        intro l
        induction l with
        | nil => exact fun _ h => nomatch h
        | cons x l ih =>
          intro a ha
          rw [List.sum_cons]
          rcases List.mem_cons.mp ha with rfl | ha
          · omega
          · have := ih a ha; omega
      refine ⟨used.sum + 1, fun _ => ⟨Nat.succ_ne_zero _, ?_⟩⟩
      by_cases e : m (used.sum + 1) = none
      · exact e
      · have := hs used _ (hu _ e)
        omega
    · exact ⟨0, fun h' => absurd h' h⟩
  exact ⟨fun m => Classical.choose (key m), fun m hm => Classical.choose_spec (key m) hm⟩

/-- A history with lists of both kinds: an entry is added twice, a list to another, an entry found in a list to the same list; all is
freed at last. -/
def sampleHistory : List AnyCall :=
  [.loc (.new ⟨"c", 3, 2, 1, 1⟩), .loc .newList, .loc (.add 1 0), .loc (.add 1 0), .loc (.new ⟨"ruby", 0, 0, 0, 1⟩), .loc .newList,
   .loc (.add 3 2), .loc (.addList 3 1), .loc (.addFound 3 "c" 3), .loc (.get "c" 3), .loc (.sum Loc.code 3), .loc (.compact 3),
   .delta (.new ⟨"c", 1, 0, 0, 0, 0, 2⟩), .delta .newList, .delta (.add 6 5), .delta (.sum LocDelta.netTotal 6), .loc (.free 0),
   .loc (.freeList 1), .loc (.free 2), .loc (.freeList 3), .loc (.freeList 4), .delta (.free 5), .delta (.freeList 6)]

example : ((World.run [] sampleHistory).map fun r => (r.1.length, r.1.all Option.isNone,
    r.2.filterMap fun s => match s with | .loc (.number n) => some n | .delta (.number n) => some n | .loc (.found (some v)) => some v.filecount | _ => none)) =
    some (7, true, [4, 12, -1]) := by decide +kernel

example : (World.run [] (sampleHistory.take 12)).map (fun r => r.1.size) = some (1 + 2 + 1 + 4 + 2) := by decide +kernel

/-- What is freed twice is noticed. -/
example (al : Alloc) (hal : Good al) : runCalls al [] [.loc (.new ⟨"c", 3, 2, 1, 1⟩), .loc (.free 0), .loc (.free 0)] (fun _ => none) = none := by
  obtain ⟨h1, h2⟩ := hal (fun _ => none) ⟨[], fun _ h => absurd rfl h⟩
  obtain ⟨p, hp⟩ : ∃ p, al (fun _ => none) = p := ⟨_, rfl⟩
  rw [hp] at h1
  simp [runCalls, anyStep, callStep, itemNew, malloc, free, hp, h1, put, bind, StateT.bind, pure, StateT.pure, liftM, monadLift, MonadLift.monadLift, StateT.lift, Option.bind]

end Ohcount.Mem
