import Verif.MemLists

/-!
A small separation logic for the programs of `Mem.lean`: assertions about a part of the memory, and what a program does to its part
whatever the rest is.
-/

namespace Ohcount.Mem

/-- A statement about a part of the memory: the blocks it owns, no others. -/
abbrev Asn := Mem → Prop

/-- The memory in which nothing is allocated. -/
def nothing : Mem := fun _ => none

/-- The two parts have no block in common. -/
def Disj (h k : Mem) : Prop := ∀ a, h a = none ∨ k a = none

/-- The two parts together. -/
def join (h k : Mem) : Mem := fun a => (h a).or (k a)

/-- `P` of one part and `Q` of the rest. -/
def star (P Q : Asn) : Asn := fun h => ∃ h1 h2, Disj h1 h2 ∧ h = join h1 h2 ∧ P h1 ∧ Q h2

infixr:65 " ⋆ " => star

/-- No block, and `φ`. -/
def fact (φ : Prop) : Asn := fun h => h = nothing ∧ φ

def emp : Asn := fun h => h = nothing

/-- The block `p`. -/
def cell (p : Ptr) (c : Cell) : Asn := fun h => h = put nothing p (some c)

def ex {α : Type} (P : α → Asn) : Asn := fun h => ∃ x, P x h

/-- From every memory of which a part has the property `P` the program comes, without invalid access, to a result `x` and to a memory in
which the rest is as before and its part has the property `Q x`. -/
def Triple {α : Type} (f : M α) (P : Asn) (Q : α → Asn) : Prop :=
  ∀ h r, Disj h r → Finite (join h r) → P h → ∃ x h', f (join h r) = some (x, join h' r) ∧ Disj h' r ∧ Finite (join h' r) ∧ Q x h'

/-- The same for a program whose result is known. -/
abbrev Does {α : Type} (f : M α) (P : Asn) (v : α) (Q : Asn) : Prop := Triple f P (fun x h => x = v ∧ Q h)

/-! ### Parts of the memory -/

theorem Disj.symm {h k : Mem} (d : Disj h k) : Disj k h := fun a => (d a).symm

theorem join_comm {h k : Mem} (d : Disj h k) : join h k = join k h := by
  funext a
  unfold join
  rcases d a with e | e <;> rw [e] <;> simp

theorem join_assoc (h k l : Mem) : join (join h k) l = join h (join k l) := by
  funext a
  unfold join
  cases h a <;> simp

theorem nothing_join (h : Mem) : join nothing h = h := by
  funext a; simp [join, nothing]

theorem join_nothing (h : Mem) : join h nothing = h := by
  funext a; simp [join, nothing]

theorem Disj.nothing (h : Mem) : Disj h nothing := fun _ => .inr rfl

theorem disj_join {h k l : Mem} : Disj h (join k l) ↔ Disj h k ∧ Disj h l := by
  constructor
  · intro d
    constructor
    · intro a
      rcases d a with e | e
      · exact .inl e
      · exact .inr (Option.or_eq_none_iff.mp e).1
    · intro a
      rcases d a with e | e
      · exact .inl e
      · exact .inr (Option.or_eq_none_iff.mp e).2
  · rintro ⟨d1, d2⟩ a
    rcases d1 a with e | e
    · exact .inl e
    · rcases d2 a with e' | e'
      · exact .inl e'
      · exact .inr (by simp [join, e, e'])

theorem join_disj {h k l : Mem} : Disj (join k l) h ↔ Disj k h ∧ Disj l h := by
  constructor
  · intro d
    have := disj_join.mp d.symm
    exact ⟨this.1.symm, this.2.symm⟩
  · rintro ⟨d1, d2⟩
    exact (disj_join.mpr ⟨d1.symm, d2.symm⟩).symm

/-! ### Assertions -/

theorem star_comm (P Q : Asn) : P ⋆ Q = Q ⋆ P := by
  have : ∀ P Q : Asn, ∀ h, (P ⋆ Q) h → (Q ⋆ P) h := by
    rintro P Q h ⟨h1, h2, d, e, p, q⟩
    exact ⟨h2, h1, d.symm, e.trans (join_comm d), q, p⟩
  funext h
  exact propext ⟨this P Q h, this Q P h⟩

theorem star_assoc (P Q R : Asn) : (P ⋆ Q) ⋆ R = P ⋆ (Q ⋆ R) := by
  funext h
  refine propext ⟨?_, ?_⟩
  · rintro ⟨_, h3, d, e, ⟨h1, h2, d', e', p, q⟩, r⟩
    subst e'
    obtain ⟨d1, d2⟩ := join_disj.mp d
    exact ⟨h1, join h2 h3, disj_join.mpr ⟨d', d1⟩, by rw [e, join_assoc], p, h2, h3, d2, rfl, q, r⟩
  · rintro ⟨h1, _, d, e, p, h2, h3, d', e', q, r⟩
    subst e'
    obtain ⟨d1, d2⟩ := disj_join.mp d
    exact ⟨join h1 h2, h3, join_disj.mpr ⟨d2, d'⟩, by rw [e, join_assoc], ⟨h1, h2, d1, rfl, p, q⟩, r⟩

theorem star_emp (P : Asn) : P ⋆ emp = P := by
  funext h
  refine propext ⟨?_, fun p => ⟨h, nothing, Disj.nothing h, (join_nothing h).symm, p, rfl⟩⟩
  rintro ⟨h1, h2, d, e, p, q⟩
  rw [show h2 = nothing from q, join_nothing] at e
  exact e ▸ p

theorem emp_star (P : Asn) : emp ⋆ P = P := (star_comm ..).trans (star_emp P)

instance : Std.Associative star := ⟨star_assoc⟩
instance : Std.Commutative star := ⟨star_comm⟩
instance : Std.LawfulIdentity star emp := { left_id := emp_star, right_id := star_emp }

theorem fact_star {φ : Prop} {P : Asn} {h : Mem} : (fact φ ⋆ P) h ↔ φ ∧ P h := by
  constructor
  · rintro ⟨h1, h2, d, e, ⟨n, f⟩, p⟩
    rw [n, nothing_join] at e
    exact ⟨f, e ▸ p⟩
  · rintro ⟨f, p⟩
    exact ⟨nothing, h, fun _ => .inl rfl, (nothing_join h).symm, ⟨rfl, f⟩, p⟩

theorem fact_emp {φ : Prop} (f : φ) : fact φ = emp := by
  funext h
  exact propext ⟨fun h => h.1, fun h => ⟨h, f⟩⟩

theorem star_mono {P P' Q Q' : Asn} (hp : ∀ h, P h → P' h) (hq : ∀ h, Q h → Q' h) : ∀ h, (P ⋆ Q) h → (P' ⋆ Q') h := by
  rintro h ⟨h1, h2, d, e, p, q⟩
  exact ⟨h1, h2, d, e, hp _ p, hq _ q⟩

/-! ### Rules -/

section
variable {α β : Type}

theorem Triple.pre {f : M α} {P P' : Asn} {Q : α → Asn} (t : Triple f P' Q) (hp : ∀ h, P h → P' h) : Triple f P Q :=
  fun h r d fin p => t h r d fin (hp h p)

theorem Triple.post {f : M α} {P : Asn} {Q Q' : α → Asn} (t : Triple f P Q) (hq : ∀ x h, Q x h → Q' x h) : Triple f P Q' := by
  intro h r d fin p
  obtain ⟨x, h', e, d', fin', q⟩ := t h r d fin p
  exact ⟨x, h', e, d', fin', hq x h' q⟩

theorem Triple.frame {f : M α} {P : Asn} {Q : α → Asn} (t : Triple f P Q) (R : Asn) : Triple f (P ⋆ R) (fun x => Q x ⋆ R) := by
  rintro _ r d fin ⟨h, k, dk, rfl, p, q⟩
  obtain ⟨d1, d2⟩ := join_disj.mp d
  rw [join_assoc] at fin ⊢
  obtain ⟨x, h', e, d', fin', g⟩ := t h (join k r) (disj_join.mpr ⟨dk, d1⟩) fin p
  obtain ⟨d3, d4⟩ := disj_join.mp d'
  refine ⟨x, join h' k, ?_, join_disj.mpr ⟨d4, d2⟩, ?_, h', k, d3, rfl, g, q⟩
  · rw [e, join_assoc]
  · rw [join_assoc]; exact fin'

theorem Does.frame {f : M α} {P Q : Asn} {v : α} (t : Does f P v Q) (R : Asn) : Does f (P ⋆ R) v (Q ⋆ R) := by
  refine (Triple.frame t R).post ?_
  rintro x h ⟨h1, h2, d, e, ⟨ev, q⟩, r⟩
  exact ⟨ev, h1, h2, d, e, q, r⟩

theorem Triple.bind {f : M α} {g : α → M β} {P : Asn} {Q : α → Asn} {R : β → Asn} (t : Triple f P Q) (t' : ∀ x, Triple (g x) (Q x) R) :
    Triple (f >>= g) P R := by
  intro h r d fin p
  obtain ⟨x, h', e, d', fin', q⟩ := t h r d fin p
  obtain ⟨y, h'', e', d'', fin'', q'⟩ := t' x h' r d' fin' q
  exact ⟨y, h'', by rw [bind_run e, e'], d'', fin'', q'⟩

theorem Does.bind {f : M α} {g : α → M β} {P Q : Asn} {v : α} {R : β → Asn} (t : Does f P v Q) (t' : Triple (g v) Q R) : Triple (f >>= g) P R := by
  refine Triple.bind t fun x => ?_
  intro h r d fin ⟨e, q⟩
  subst e
  exact t' h r d fin q

/-- A step that needs a part of what there is. -/
theorem Triple.step {f : M α} {g : α → M β} {P A F : Asn} {B : α → Asn} {R : β → Asn} (hP : P = A ⋆ F) (t : Triple f A B)
    (t' : ∀ x, Triple (g x) (B x ⋆ F) R) : Triple (f >>= g) P R := by
  subst hP
  exact (t.frame F).bind t'

theorem Does.step {f : M α} {g : α → M β} {P A B F : Asn} {v : α} {R : β → Asn} (hP : P = A ⋆ F) (t : Does f A v B)
    (t' : Triple (g v) (B ⋆ F) R) : Triple (f >>= g) P R := by
  subst hP
  exact (Does.frame t F).bind t'

theorem Triple.pure {v : α} {P : Asn} {Q : α → Asn} (h : ∀ k, P k → Q v k) : Triple (Pure.pure v : M α) P Q :=
  fun k r d fin p => ⟨v, k, rfl, d, fin, h k p⟩

theorem Does.pure (v : α) (P : Asn) : Does (Pure.pure v : M α) P v P := Triple.pure fun _ p => ⟨rfl, p⟩

theorem Triple.ex {γ : Type} {f : M α} {P : γ → Asn} {Q : α → Asn} (t : ∀ x, Triple f (P x) Q) : Triple f (Mem.ex P) Q :=
  fun h r d fin ⟨x, p⟩ => t x h r d fin p

/-- From a fact. -/
theorem Triple.fact {f : M α} {φ : Prop} {P : Asn} {Q : α → Asn} (t : φ → Triple f P Q) : Triple f (Mem.fact φ ⋆ P) Q := by
  intro h r d fin p
  obtain ⟨a, b⟩ := fact_star.mp p
  exact t a h r d fin b

/-- What follows from the assertion and from the memory being finite. -/
theorem Triple.know {f : M α} {φ : Prop} {P : Asn} {Q : α → Asn} (k : ∀ h, P h → h 0 = none → φ) (t : φ → Triple f P Q) : Triple f P Q := by
  intro h r d fin p
  exact t (k h p (Option.or_eq_none_iff.mp fin.1).1) h r d fin p

/-- `m` where `B` holds. -/
noncomputable def restrict (m : Mem) (B : Ptr → Prop) : Mem := fun a => open Classical in if B a then m a else none

/-- From what a program does to the whole memory. -/
theorem Triple.ofRun {f : M α} {P R : Asn} {Q : α → Asn}
    (run : ∀ h k m, P h → R k → Disj h k → Finite m → (∀ a c, h a = some c → m a = some c) → (∀ a c, k a = some c → m a = some c) →
      ∃ (x : α) (m' : Mem) (B : Ptr → Prop), f m = some (x, m') ∧ Finite m' ∧ (∀ a, h a = none → B a → m a = none) ∧
        (∀ a, h a ≠ none → ¬ B a → m' a = none) ∧ (∀ a, h a = none → ¬ B a → m' a = m a) ∧ Q x (restrict m' B)) :
    Triple f (P ⋆ R) (fun x => Q x ⋆ R) := by
  rintro _ r d fin ⟨h, k, dk, rfl, p, q⟩
  obtain ⟨d1, d2⟩ := join_disj.mp d
  obtain ⟨x, m', B, e, fin', c1, c2, c3, g⟩ := run h k _ p q dk fin
    (fun a c e => by simp [join, e])
    (fun a c e => by
      rcases dk a with e' | e'
      · simp [join, e, e']
      · rw [e] at e'; cases e')
  have new : ∀ a, B a → k a = none ∧ r a = none := by
    intro a ha
    cases hh : h a with
    | none =>
      have := c1 a hh ha
      simpa [join, hh] using this
    | some c =>
      have e1 := dk a
      have e2 := d1 a
      simp [hh] at e1 e2
      exact ⟨e1, e2⟩
  have eq : m' = join (join (restrict m' B) k) r := by
    funext a
    by_cases ha : B a
    · obtain ⟨e1, e2⟩ := new a ha
      simp [join, restrict, ha, e1, e2]
    · cases hh : h a with
      | none =>
        rw [c3 a hh ha]
        simp [join, restrict, ha, hh]
      | some c =>
        rw [c2 a (by rw [hh]; exact fun h => nomatch h) ha]
        have e1 := dk a
        have e2 := d1 a
        simp [hh] at e1 e2
        simp [join, restrict, ha, e1, e2]
  have dis : ∀ a, restrict m' B a = none ∨ (k a = none ∧ r a = none) := by
    intro a
    by_cases ha : B a
    · exact .inr (new a ha)
    · exact .inl (by simp [restrict, ha])
  refine ⟨x, join (restrict m' B) k, ?_, ?_, ?_, restrict m' B, k, ?_, rfl, g, q⟩
  · rw [e, ← eq]
  · exact join_disj.mpr ⟨fun a => (dis a).imp id (·.2), d2⟩
  · rw [← eq]; exact fin'
  · exact fun a => (dis a).imp id (·.1)

/-- From what a program that changes nothing returns. -/
theorem Does.ofRead {f : M α} {P : Asn} {v : α} (run : ∀ h m, P h → Finite m → (∀ a c, h a = some c → m a = some c) → f m = some (v, m)) :
    Does f P v P := by
  intro h r d fin p
  exact ⟨v, h, run h _ p fin (fun a c e => by simp [join, e]), d, fin, rfl, p⟩

end

/-! ### Single blocks -/

theorem cell_at {p : Ptr} {c : Cell} {h : Mem} (e : cell p c h) : h p = some c := by
  rw [show h = _ from e, put_same]

theorem cell_other {p a : Ptr} {c : Cell} {h : Mem} (e : cell p c h) (n : a ≠ p) : h a = none := by
  rw [show h = _ from e, put_other n]; rfl

theorem cell_ne {p : Ptr} {c : Cell} {h : Mem} (e : cell p c h) (h0 : h 0 = none) : p ≠ 0 := by
  intro e'
  have := cell_at e
  rw [e', h0] at this
  cases this

theorem malloc_does {al : Alloc} (hal : Good al) (c : Cell) : Triple (malloc al c) emp (fun p => cell p c) := by
  intro h r d fin p
  obtain ⟨a1, a2⟩ := hal _ fin.2
  rw [show h = nothing from p, nothing_join] at a1 a2 fin ⊢
  refine ⟨al r, put nothing (al r) (some c), ?_, ?_, ?_, rfl⟩
  · show some (al r, _) = _
    congr 2
    funext a
    by_cases e : a = al r
    · rw [e, put_same]; simp [join, put_same]
    · rw [put_other e]; simp [join, put_other e, nothing]
  · intro a
    by_cases e : a = al r
    · exact .inr (e ▸ a2)
    · exact .inl (by rw [put_other e]; rfl)
  · refine ⟨?_, al r :: fin.2.choose, ?_⟩
    · simp [join, put_other (Ne.symm a1), nothing, fin.1]
    · intro a ha
      by_cases e : a = al r
      · simp [e]
      · simp only [join, put_other e, nothing, Option.none_or] at ha
        exact List.mem_cons_of_mem _ (fin.2.choose_spec a ha)

theorem put_join {p : Ptr} {c : Cell} {c' : Option Cell} {h r : Mem} (e : cell p c h) (d : Disj h r) :
    put (join h r) p c' = join (put nothing p c') r ∧ Disj (put nothing p c') r := by
  have hr : r p = none := by
    rcases d p with e' | e'
    · rw [cell_at e] at e'; cases e'
    · exact e'
  constructor
  · funext a
    by_cases n : a = p
    · rw [n, put_same]; simp [join, put_same, hr]
    · rw [put_other n]; simp [join, put_other n, nothing, cell_other e n]
  · intro a
    by_cases n : a = p
    · exact .inr (n ▸ hr)
    · exact .inl (by rw [put_other n]; rfl)

theorem join_at {p : Ptr} {c : Cell} {h r : Mem} (e : cell p c h) : join h r p = some c := by
  simp [join, cell_at e]

theorem write_does {f : M Unit} {p : Ptr} {c c' : Cell} (run : ∀ m, m p = some c → f m = some ((), put m p (some c'))) :
    Does f (cell p c) () (cell p c') := by
  intro h r d fin e
  obtain ⟨e1, e2⟩ := put_join (c' := some c') e d
  have hp : p ≠ 0 := fun e' => by have := join_at (r := r) e; rw [e', fin.1] at this; cases this
  refine ⟨(), put nothing p (some c'), ?_, e2, ?_, rfl, rfl⟩
  · rw [run _ (join_at e), e1]
  · rw [← e1]; exact fin.put hp _

theorem free_does (p : Ptr) (c : Cell) : Does (free p) (cell p c) () emp := by
  intro h r d fin e
  obtain ⟨e1, e2⟩ := put_join (c' := none) e d
  have hp : p ≠ 0 := fun e' => by have := join_at (r := r) e; rw [e', fin.1] at this; cases this
  have n0 : put nothing p none = nothing := by
    funext a
    by_cases n : a = p
    · rw [n, put_same]; rfl
    · rw [put_other n]
  refine ⟨(), nothing, ?_, fun _ => .inl rfl, ?_, rfl, rfl⟩
  · rw [free_run fin.1 (join_at e), e1, n0]
  · rw [← n0, ← e1]; exact fin.put hp _

theorem free_null_does : Does (free 0) emp () emp := by
  intro h r d fin e
  exact ⟨(), h, rfl, d, fin, rfl, e⟩

theorem getNode_does (p : Ptr) (n : Node) : Does (getNode p) (cell p (.node n)) n (cell p (.node n)) :=
  Does.ofRead fun _ _ e _ g => getNode_run (g _ _ (cell_at e))

theorem setNode_does (p : Ptr) (n n' : Node) : Does (setNode p n') (cell p (.node n)) () (cell p (.node n')) :=
  write_does fun _ => setNode_run

theorem getItem_does {V : Type} (E : Entry V) (p : Ptr) (v : V) : Does (getItem E p) (cell p (E.cell v)) v (cell p (E.cell v)) :=
  Does.ofRead fun _ _ e _ g => getItem_run E (g _ _ (cell_at e))

/-! ### Lists of counts and of parsed languages -/

section
variable {V : Type} (E : Entry V)

/-- The list at `p`, with its entries. -/
def Lst (p : Ptr) (vs : List V) : Asn := fun h => ∃ bs, Holds E h p vs bs ∧ ∀ a, h a ≠ none → a ∈ bs

variable {E}

theorem Lst.whole {p : Ptr} {vs : List V} {h m : Mem} (l : Lst E p vs h) (g : ∀ a c, h a = some c → m a = some c) :
    ∃ bs, Holds E m p vs bs ∧ ∀ a, h a ≠ none ↔ a ∈ bs := by
  obtain ⟨bs, h1, h2⟩ := l
  refine ⟨bs, h1.congr fun a ha => ?_, fun a => ⟨h2 a, h1.alive a⟩⟩
  have := h1.alive a ha
  cases e : h a with
  | none => exact absurd e this
  | some c => rw [g a c e]

theorem Lst.restrict {p : Ptr} {vs : List V} {m : Mem} {bs : List Ptr} (h : Holds E m p vs bs) : Lst E p vs (restrict m (· ∈ bs)) :=
  ⟨bs, h.congr fun a ha => by simp [Mem.restrict, ha], fun a ha => by
    by_cases hb : a ∈ bs
    · exact hb
    · simp [Mem.restrict, hb] at ha⟩

/-- From what a function does to a list, without use of anything else that it changes. -/
theorem Lst.triple {α : Type} {f : M α} {p : Ptr} {vs vs' : List V} {R : Asn} {φ : α → Prop}
    (run : ∀ m bs k, Finite m → Holds E m p vs bs → R k → (∀ a c, k a = some c → m a = some c) → (∀ a ∈ bs, k a = none) →
      ∃ x m' new, f m = some (x, m') ∧ φ x ∧ Finite m' ∧ Holds E m' p vs' (new ++ bs) ∧ (∀ a ∈ new, m a = none) ∧ ∀ a, a ∉ new → a ∉ bs → m' a = m a) :
    Triple f (Lst E p vs ⋆ R) (fun x => (fun h => φ x ∧ Lst E p vs' h) ⋆ R) := by
  refine Triple.ofRun fun h k m l r d fin g1 g2 => ?_
  obtain ⟨bs, b1, b2⟩ := l.whole g1
  obtain ⟨x, m', new, e, hx, fin', c1, c2, c3⟩ := run m bs k fin b1 r g2 fun a ha => by
    have := (b2 a).mpr ha
    rcases d a with e | e
    · exact absurd e this
    · exact e
  refine ⟨x, m', (· ∈ new ++ bs), e, fin', ?_, ?_, ?_, hx, Lst.restrict c1⟩
  · intro a ha hb
    rcases List.mem_append.mp hb with hb | hb
    · exact c2 a hb
    · exact absurd ha ((b2 a).mpr hb)
  · intro a ha hb
    exact absurd (List.mem_append_right _ ((b2 a).mp ha)) hb
  · intro a ha hb
    have hb' : a ∉ new ++ bs := hb
    rw [List.mem_append, not_or] at hb'
    exact c3 a hb'.1 hb'.2

theorem Lst.ne {p : Ptr} {vs : List V} {h : Mem} (l : Lst E p vs h) (h0 : h 0 = none) : p ≠ 0 := by
  obtain ⟨bs, h1, _⟩ := l
  obtain ⟨n, g, _⟩ := h1.head h0
  intro e
  rw [e, h0] at g
  cases g

theorem listNew_does {al : Alloc} (hal : Good al) : Triple (listNew al) emp (fun p => Lst E p []) := by
  refine (malloc_does hal _).post fun p h e => ?_
  refine ⟨[p], ⟨[], ⟨{}, cell_at e, rfl⟩, .nil, .refl _, by simp⟩, fun a ha => ?_⟩
  by_cases n : a = p
  · simp [n]
  · exact absurd (cell_other e n) ha

theorem listFree_does (p : Ptr) (vs : List V) : Does (listFree p) (Lst E p vs) () emp := by
  have : Triple (listFree p) (Lst E p vs ⋆ emp) (fun x => (fun h => x = () ∧ emp h) ⋆ emp) := by
    refine Triple.ofRun fun h k m l r d fin g1 g2 => ?_
    obtain ⟨bs, b1, b2⟩ := l.whole g1
    obtain ⟨m', e, k1, k2, k3⟩ := listFree_run fin.1 b1
    refine ⟨(), m', fun _ => False, e, ⟨k1, ?_⟩, by simp, fun a ha _ => k2 a ((b2 a).mp ha), fun a ha _ => k3 a fun hb => absurd ha ((b2 a).mpr hb), rfl, ?_⟩
    · obtain ⟨used, hu⟩ := fin.2
      refine ⟨used, fun a ha => hu a fun e => ha ?_⟩
      by_cases hb : a ∈ bs
      · exact k2 a hb
      · rw [k3 a hb, e]
    · funext a; simp [Mem.restrict, nothing]
  rw [star_emp] at this
  exact this.post fun x h q => by rw [star_emp] at q; exact q

theorem listAdd_does {al : Alloc} (hal : Good al) (p loc : Ptr) (vs : List V) (w : V) :
    Does (listAdd E al p loc) (Lst E p vs ⋆ cell loc (E.cell w)) () (Lst E p (add E vs w) ⋆ cell loc (E.cell w)) := by
  refine (Lst.triple (vs' := add E vs w) (φ := fun x => x = ()) fun m bs k fin h r g hd => ?_).post ?_
  · obtain ⟨m', new, e, k⟩ := listAdd_run hal fin h (g _ _ (cell_at r))
    exact ⟨(), m', new, e, rfl, k⟩
  · rintro x h ⟨h1, h2, d, e, ⟨ev, q⟩, r⟩
    exact ⟨ev, h1, h2, d, e, q, r⟩

theorem listAddList_does {al : Alloc} (hal : Good al) (p o : Ptr) (vs ws : List V) :
    Does (listAddList E al p o) (Lst E p vs ⋆ Lst E o ws) () (Lst E p (ws.foldl (add E) vs) ⋆ Lst E o ws) := by
  refine (Lst.triple (vs' := ws.foldl (add E) vs) (φ := fun x => x = ()) fun m bs k fin h r g hd => ?_).post ?_
  · obtain ⟨cs, c1, c2⟩ := r.whole g
    obtain ⟨m', new, e, k⟩ := listAddList_run hal fin h c1 fun a ha hb => absurd (hd a hb) ((c2 a).mpr ha)
    exact ⟨(), m', new, e, rfl, k⟩
  · rintro x h ⟨h1, h2, d, e, ⟨ev, q⟩, r⟩
    exact ⟨ev, h1, h2, d, e, q, r⟩

end

end Ohcount.Mem
