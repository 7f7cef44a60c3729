import Verif.Sep
import Verif.MemFile

/-!
The nodes of a list apart from what they point to.
-/

namespace Ohcount.Mem

/-- The address of the first node. -/
def headPtr : List (Ptr × Ptr) → Ptr
  | [] => 0
  | x :: _ => x.1

/-- The license of a node. -/
def licOf : Option Cell → String
  | some (.node n) => n.lic
  | _ => ""

/-- The addresses of the nodes of the list at `p`; an empty list is a node. -/
def nodes (p : Ptr) : List (Ptr × Ptr) → List Ptr
  | [] => [p]
  | xs => xs.map (·.1)

/-- The nodes of the list at `p`, given by their addresses and those of their items, and their licenses. -/
def Spine (p : Ptr) (xs : List (Ptr × Ptr)) (ls : List String) : Asn := fun h =>
  IsList h p xs ∧ (nodes p xs).Nodup ∧ (∀ a, h a ≠ none → a ∈ nodes p xs) ∧ ls = xs.map fun x => licOf (h x.1)

theorem Spine.length {p : Ptr} {xs : List (Ptr × Ptr)} {ls : List String} {h : Mem} (s : Spine p xs ls h) : ls.length = xs.length := by
  rw [s.2.2.2, List.length_map]

theorem Spine.alive {p : Ptr} {xs : List (Ptr × Ptr)} {ls : List String} {h : Mem} (s : Spine p xs ls h) : ∀ a ∈ nodes p xs, ∃ n, h a = some (.node n) := by
  obtain ⟨h1, _⟩ := s
  intro a ha
  cases xs with
  | nil =>
    obtain ⟨n, g, _⟩ := h1
    simp only [nodes, List.mem_singleton] at ha
    exact ⟨n, ha ▸ g⟩
  | cons x xs => exact h1.2.1.nodes a ha

theorem Chain.head {m : Mem} : ∀ {xs : List (Ptr × Ptr)} {p : Ptr}, Chain m p xs → p = headPtr xs
  | [], _, h => h
  | _ :: _, _, h => h.1

theorem Chain.at_node {m : Mem} : ∀ {xs1 : List (Ptr × Ptr)} {x : Ptr × Ptr} {xs2 : List (Ptr × Ptr)} {p : Ptr}, Chain m p (xs1 ++ x :: xs2) →
    ∃ n, m x.1 = some (.node n) ∧ n.item = x.2 ∧ n.next = headPtr xs2
  | [], _, _, _, h => by obtain ⟨_, n, b1, b2, b3⟩ := h; exact ⟨n, b1, b2, b3.head⟩
  | _ :: zs1, _, _, _, h => by obtain ⟨_, _, _, _, b⟩ := h; exact Chain.at_node (xs1 := zs1) b

theorem Spine.chain {p : Ptr} {xs : List (Ptr × Ptr)} {ls : List String} {h : Mem} (s : Spine p xs ls h) : xs ≠ [] → Chain h p xs := by
  cases xs with
  | nil => exact fun h => absurd rfl h
  | cons x xs => exact fun _ => s.1.2.1

/-- The first node, from which all loops start. -/
theorem getHead_does (p : Ptr) (xs : List (Ptr × Ptr)) (ls : List String) :
    Triple (getNode p) (Spine p xs ls) (fun n h => n.head = headPtr xs ∧ Spine p xs ls h) := by
  intro h r d fin s
  obtain ⟨n, e, k⟩ : ∃ n, h p = some (.node n) ∧ n.head = headPtr xs := by
    obtain ⟨s1, _⟩ := s
    cases xs with
    | nil => exact s1
    | cons x xs =>
      obtain ⟨e, _, n, k1, k2, _⟩ := s1
      exact ⟨n, k1, k2.trans e.symm⟩
  exact ⟨n, h, getNode_run (by simp [join, e]), d, fin, k, s⟩

/-- A node in the course of a loop. -/
theorem getNth_does (p : Ptr) (xs1 : List (Ptr × Ptr)) (x : Ptr × Ptr) (xs2 : List (Ptr × Ptr)) (ls : List String) :
    Triple (getNode x.1) (Spine p (xs1 ++ x :: xs2) ls)
      (fun n h => (n.item = x.2 ∧ n.next = headPtr xs2 ∧ ls[xs1.length]? = some n.lic) ∧ Spine p (xs1 ++ x :: xs2) ls h) := by
  intro h r d fin s
  obtain ⟨n, e, k⟩ := (s.chain (by simp)).at_node
  refine ⟨n, h, getNode_run (by simp [join, e]), d, fin, ⟨k.1, k.2, ?_⟩, s⟩
  rw [s.2.2.2]
  simp [e, licOf]

theorem Spine.ne {p : Ptr} {xs1 : List (Ptr × Ptr)} {x : Ptr × Ptr} {xs2 : List (Ptr × Ptr)} {ls : List String} {h : Mem} (s : Spine p (xs1 ++ x :: xs2) ls h)
    (h0 : h 0 = none) : x.1 ≠ 0 := by
  obtain ⟨n, e, _⟩ := (s.chain (by simp)).at_node
  intro e'
  rw [e', h0] at e
  cases e

theorem Spine.ne_head {p : Ptr} {xs : List (Ptr × Ptr)} {ls : List String} {h : Mem} (s : Spine p xs ls h) (h0 : h 0 = none) : p ≠ 0 := by
  obtain ⟨n, e⟩ : ∃ n, h p = some (.node n) := by
    refine s.alive p ?_
    cases xs with
    | nil => simp [nodes]
    | cons x xs => simp [nodes, s.1.1]
  intro e'
  rw [e', h0] at e
  cases e

theorem star_ne {P Q : Asn} {φ : Prop} (k : ∀ h, P h → h 0 = none → φ) : ∀ h, (P ⋆ Q) h → h 0 = none → φ := by
  rintro h ⟨h1, h2, _, e, p, _⟩ h0
  rw [e] at h0
  exact k h1 p (Option.or_eq_none_iff.mp h0).1

/-! ### Adding -/

/-- A new list. -/
theorem listNew_spine {al : Alloc} (hal : Good al) : Triple (listNew al) emp (fun p => Spine p [] []) := by
  refine (malloc_does hal _).post fun p h e => ?_
  refine ⟨⟨{}, cell_at e, rfl⟩, by simp [nodes], fun a ha => ?_, rfl⟩
  by_cases n : a = p
  · simp [nodes, n]
  · exact absurd (cell_other e n) ha

theorem Spine.empty {p : Ptr} {ls : List String} {h : Mem} (s : Spine p [] ls h) : ∃ n, cell p (.node n) h ∧ n.head = 0 := by
  obtain ⟨⟨n, e, e0⟩, _, s2, _⟩ := s
  refine ⟨n, ?_, e0⟩
  funext a
  by_cases ha : a = p
  · rw [ha, put_same, e]
  · rw [put_other ha]
    cases k : h a with
    | none => rfl
    | some c =>
      have := s2 a (by rw [k]; exact fun h => nomatch h)
      simp only [nodes, List.mem_singleton] at this
      exact absurd this ha

theorem first_does {mk : M Ptr} {Q : Ptr → Asn} (t : Triple mk emp Q) (p : Ptr) (lic : String) :
    Triple (first p lic mk) (Spine p [] []) (fun x => Spine p [(p, x)] [lic] ⋆ Q x) := by
  refine Triple.pre (P' := ex fun n => cell p (.node n)) (Triple.ex fun n => ?_) fun h s => by
    obtain ⟨n, e, _⟩ := s.empty
    exact ⟨n, e⟩
  rw [first]
  refine (getNode_does p n).bind ?_
  refine (setNode_does p n _).bind ?_
  refine Triple.step (A := emp) (F := cell p (.node { n with head := p, tail := p })) (emp_star _).symm t fun x => ?_
  refine Does.step (star_comm ..) (getNode_does p _) ?_
  refine (Does.frame (getNode_does p _) _).bind ?_
  refine (Does.frame (setNode_does p _ _) _).bind ?_
  refine Triple.pure fun k q => ?_
  refine star_mono (fun h e => ?_) (fun _ q => q) k q
  refine ⟨⟨rfl, ⟨rfl, _, cell_at e, rfl, rfl⟩, _, cell_at e, rfl, rfl⟩, by simp [nodes], fun a ha => ?_, ?_⟩
  · by_cases n : a = p
    · simp [nodes, n]
    · exact absurd (cell_other e n) ha
  · simp [licOf, cell_at e]

theorem append_does {al : Alloc} (hal : Good al) {mk : M Ptr} {Q : Ptr → Asn} (t : Triple mk emp Q) (p : Ptr) (xs : List (Ptr × Ptr)) (hx : xs ≠ []) (ls : List String)
    (lic : String) :
    Triple (append al p lic mk) (Spine p xs ls) (fun x => ex fun b => Spine p (xs ++ [(b, x)]) (ls ++ [lic]) ⋆ Q x) := by
  obtain ⟨y, ys, rfl⟩ : ∃ y ys, xs = y :: ys := by
    cases xs with
    | nil => exact absurd rfl hx
    | cons y ys => exact ⟨y, ys, rfl⟩
  have : Triple (append al p lic mk) (Spine p (y :: ys) ls ⋆ emp) (fun x => (ex fun b => Spine p ((y :: ys) ++ [(b, x)]) (ls ++ [lic]) ⋆ Q x) ⋆ emp) := by
    refine Triple.ofRun fun h k m s _ _ fin g _ => ?_
    obtain ⟨b1, b2⟩ := hal m fin.2
    obtain ⟨b, eb⟩ : ∃ b, b = al m := ⟨_, rfl⟩
    obtain ⟨x, h', e, d, fin', q⟩ := t nothing (put m b (some (.node {}))) (fun _ => .inl rfl) (by rw [nothing_join]; exact fin.put (eb ▸ b1) _) rfl
    rw [nothing_join] at e
    obtain ⟨s1, s2, s3, s4⟩ := s
    have old : ∀ a c, h a = some c → m a = some c := g
    have hl : IsList m p (y :: ys) := by
      obtain ⟨q1, q2, n, q3, q4⟩ := s1
      exact ⟨q1, q2.congr fun a _ n hn => ⟨n, g _ _ hn, rfl, rfl⟩, n, g _ _ q3, q4⟩
    obtain ⟨m', k1, k2, k3, k4, k5, k6⟩ := append_run (lic := lic) hl s2 fin.1 b2 (eb ▸ e)
      (fun a ha => by
        rw [← eb] at ha ⊢
        rcases d a with e' | e'
        · simp [join, e']
        · exact absurd e' ha)
    rw [← eb] at k2 k3 k5 k6 b1 b2
    have hn : ∀ a ∈ (y :: ys).map (·.1), h a ≠ none := fun a ha => by
      obtain ⟨n, e⟩ := s1.2.1.nodes a ha
      rw [e]; exact fun h => nomatch h
    have hb : b ∉ (y :: ys).map (·.1) := fun hb => by
      obtain ⟨n, e⟩ := s1.2.1.nodes b hb
      rw [old b _ e] at b2
      cases b2
    have hh' : ∀ a, h' a ≠ none → a ≠ b ∧ a ∉ (y :: ys).map (·.1) ∧ m a = none := by
      intro a ha
      have e1 : put m b (some (.node {})) a = none := by
        rcases d a with e' | e'
        · exact absurd e' ha
        · exact e'
      have e2 : a ≠ b := fun e => by rw [e, put_same] at e1; cases e1
      rw [put_other e2] at e1
      refine ⟨e2, fun e3 => ?_, e1⟩
      obtain ⟨n, e⟩ := s1.2.1.nodes a e3
      rw [old a _ e] at e1
      cases e1
    have far : ∀ a, a ≠ b → a ∉ (y :: ys).map (·.1) → m' a = join h' m a := by
      intro a e1 e2
      rw [k5 a e1 e2]
      simp only [join, put_other e1]
    let B : Ptr → Prop := fun a => a ∈ (y :: ys).map (·.1) ∨ a = b
    let C : Ptr → Prop := fun a => B a ∨ h' a ≠ none
    have eC : restrict m' C = join (restrict m' B) h' := by
      funext a
      by_cases hB : B a
      · have : h' a = none := by
          cases e : h' a with
          | none => rfl
          | some c =>
            obtain ⟨e1, e2, _⟩ := hh' a (by rw [e]; exact fun h => nomatch h)
            rcases hB with hB | hB
            · exact absurd hB e2
            · exact absurd hB e1
        simp [restrict, C, hB, join, this]
      · have hB' := hB
        simp only [B, not_or] at hB'
        by_cases e : h' a = none
        · simp [restrict, C, hB, join, e]
        · have := far a hB'.2 hB'.1
          cases e' : h' a with
          | none => exact absurd e' e
          | some c =>
            simp [join, e'] at this
            simp [restrict, C, hB, join, e', this]
    have rB : ∀ a, B a → restrict m' B a = m' a := fun a ha => by simp [restrict, ha]
    refine ⟨x, m', C, k1, k6 fin', ?_, ?_, ?_, ?_⟩
    · intro a ha hC
      rcases hC with (hC | hC) | hC
      · exact absurd ha (hn a hC)
      · exact hC ▸ b2
      · exact (hh' a hC).2.2
    · intro a ha hC
      exact absurd (.inl (.inl (s3 a ha))) hC
    · intro a ha hC
      have hC' : ¬ (B a ∨ h' a ≠ none) := hC
      rw [not_or] at hC'
      obtain ⟨e1, e2⟩ := hC'
      have e1' : ¬ (a ∈ (y :: ys).map (·.1) ∨ a = b) := e1
      rw [not_or] at e1'
      have e2' : h' a = none := Classical.not_not.mp e2
      rw [far a e1'.2 e1'.1]
      simp [join, e2']
    · rw [eC]
      refine ⟨b, restrict m' B, h', ?_, rfl, ⟨?_, ?_, ?_, ?_⟩, q⟩
      · intro a
        by_cases hB : B a
        · refine .inr ?_
          cases e : h' a with
          | none => rfl
          | some c =>
            obtain ⟨e1, e2, _⟩ := hh' a (by rw [e]; exact fun h => nomatch h)
            rcases hB with hB | hB
            · exact absurd hB e2
            · exact absurd hB e1
        · exact .inl (by simp [restrict, hB])
      · obtain ⟨q1, q2, n, q3, q4⟩ := k2
        have hp : B p := .inl (by rw [← q1]; simp)
        refine ⟨q1, q2.congr fun a ha n hn => ⟨n, ?_, rfl, rfl⟩, n, ?_, q4⟩
        · rw [rB a, hn]
          have ha' : a ∈ (y :: ys ++ [(b, x)]).map (·.1) := ha
          rw [List.map_append, List.mem_append] at ha'
          exact ha'.imp id fun h => by simpa using h
        · rw [rB p hp, q3]
      · show (((y :: ys) ++ [(b, x)]).map (·.1)).Nodup
        rw [List.map_append, List.nodup_append]
        refine ⟨s2, by simp, fun a ha c hc e => hb ?_⟩
        simp only [List.map_cons, List.map_nil, List.mem_singleton] at hc
        rw [← hc, ← e]; exact ha
      · intro a ha
        show a ∈ ((y :: ys) ++ [(b, x)]).map (·.1)
        by_cases hB : B a
        · rw [List.map_append, List.mem_append]
          exact hB.imp id fun h => by simp [h]
        · exact absurd (by simp [restrict, hB]) ha
      · rw [List.map_append, s4]
        congr 1
        · refine List.map_congr_left fun z hz => ?_
          have hz' : z.1 ∈ (y :: ys).map (·.1) := List.mem_map_of_mem hz
          obtain ⟨n, e⟩ := s1.2.1.nodes z.1 hz'
          obtain ⟨n', e1, _, e3⟩ := k4 z.1 hz' n (old _ _ e)
          rw [rB z.1 (.inl hz'), e, e1]
          exact e3.symm
        · simp [rB b (.inr rfl), k3, licOf]
  rw [star_emp] at this
  exact this.post fun x h q => by rw [star_emp] at q; exact q

/-! ### Nodes one by one -/

/-- The nodes, each for itself. -/
def Nodes : List (Ptr × Ptr) → Asn
  | [] => emp
  | x :: xs => (ex fun n => fact (n.item = x.2 ∧ n.next = headPtr xs) ⋆ cell x.1 (.node n)) ⋆ Nodes xs

theorem restrict_cons {m : Mem} {a : Ptr} {l : List Ptr} {c : Cell} (e : m a = some c) (n : a ∉ l) :
    restrict m (· ∈ a :: l) = join (put nothing a (some c)) (restrict m (· ∈ l)) ∧ Disj (put nothing a (some c)) (restrict m (· ∈ l)) := by
  constructor
  · funext b
    by_cases h : b = a
    · simp [join, h, restrict, put_same, e]
    · by_cases hl : b ∈ l <;> simp [join, put_other h, nothing, restrict, h, hl]
  · intro b
    by_cases h : b = a
    · exact .inr (by simp [h, restrict, n])
    · exact .inl (by rw [put_other h]; rfl)

theorem restrict_self {h : Mem} {B : Ptr → Prop} (k : ∀ a, h a ≠ none → B a) : restrict h B = h := by
  funext a
  by_cases e : B a
  · simp [restrict, e]
  · simp only [restrict, if_neg e]
    cases f : h a with
    | none => rfl
    | some c => exact absurd (k a (by rw [f]; exact fun h => nomatch h)) e

theorem Chain.toNodes {m : Mem} : ∀ {xs : List (Ptr × Ptr)} {p : Ptr}, Chain m p xs → (xs.map (·.1)).Nodup → Nodes xs (restrict m (· ∈ xs.map (·.1)))
  | [], _, _, _ => by
    funext a
    simp [restrict, nothing]
  | x :: xs, _, h, hn => by
    obtain ⟨_, n, h2, h3, h4⟩ := h
    rw [List.map_cons, List.nodup_cons] at hn
    obtain ⟨e, d⟩ := restrict_cons h2 hn.1
    exact ⟨_, _, d, e, ⟨n, fact_star.mpr ⟨⟨h3, h4.head⟩, rfl⟩⟩, h4.toNodes hn.2⟩

theorem Spine.toNodes {p : Ptr} {xs : List (Ptr × Ptr)} {ls : List String} (hx : xs ≠ []) : ∀ h, Spine p xs ls h → Nodes xs h := by
  intro h s
  have c := s.chain hx
  obtain ⟨_, s2, s3, _⟩ := s
  have e : nodes p xs = xs.map (·.1) := by
    cases xs with
    | nil => exact absurd rfl hx
    | cons => rfl
  rw [e] at s2 s3
  have := c.toNodes s2
  rwa [restrict_self s3] at this

/-! ### The items of a list of counts or of parsed languages -/

section
variable {V : Type} (E : Entry V)

/-- The items, each for itself. -/
def Cells : List (Ptr × Ptr) → List V → Asn
  | [], [] => emp
  | x :: xs, v :: vs => cell x.2 (E.cell v) ⋆ Cells xs vs
  | _, _ => fun _ => False

variable {E}

theorem Cells.length : ∀ {xs : List (Ptr × Ptr)} {vs : List V} {h : Mem}, Cells E xs vs h → xs.length = vs.length
  | [], [], _, _ => rfl
  | _ :: _, _ :: _, _, ⟨_, _, _, _, _, c⟩ => congrArg (· + 1) c.length
  | [], _ :: _, _, h => h.elim
  | _ :: _, [], _, h => h.elim

theorem Cells.append : ∀ {xs ys : List (Ptr × Ptr)} {vs ws : List V}, xs.length = vs.length → Cells E (xs ++ ys) (vs ++ ws) = Cells E xs vs ⋆ Cells E ys ws
  | [], _, [], _, _ => (emp_star _).symm
  | _ :: xs, _, _ :: vs, _, h => by
    show _ ⋆ Cells E (xs ++ _) (vs ++ _) = (_ ⋆ _) ⋆ _
    rw [Cells.append (by simpa using h), star_assoc]
  | [], _, _ :: _, _, h => by simp at h
  | _ :: _, _, [], _, h => by simp at h

theorem Items.toCells {m : Mem} {xs : List (Ptr × Ptr)} {vs : List V} (h : Items E m xs vs) : (xs.map (·.2)).Nodup →
    Cells E xs vs (restrict m (· ∈ xs.map (·.2))) := by
  induction h with
  | nil => intro _; funext a; simp [restrict, nothing]
  | @cons x v xs vs h hs ih =>
    intro hn
    rw [List.map_cons, List.nodup_cons] at hn
    obtain ⟨e, d⟩ := restrict_cons h hn.1
    exact ⟨_, _, d, e, rfl, ih hn.2⟩

theorem Cells.toItems : ∀ {xs : List (Ptr × Ptr)} {vs : List V} {h m : Mem}, Cells E xs vs h → (∀ a c, h a = some c → m a = some c) →
    Items E m xs vs ∧ (xs.map (·.2)).Nodup ∧ ∀ a, h a ≠ none ↔ a ∈ xs.map (·.2)
  | [], [], h, m, e, _ => by
    rw [show h = nothing from e]
    exact ⟨.nil, by simp, by simp [nothing]⟩
  | x :: xs, v :: vs, h, m, ⟨h1, h2, d, e, c1, c2⟩, g => by
    obtain ⟨i, n, k⟩ := c2.toItems (m := m) fun a c ea => g a c (by
      rw [e]
      rcases d a with e' | e'
      · simp [join, e', ea]
      · rw [ea] at e'; cases e')
    refine ⟨.cons (g _ _ (by rw [e]; simp [join, cell_at c1])) i, ?_, ?_⟩
    · rw [List.map_cons, List.nodup_cons]
      refine ⟨fun hx => ?_, n⟩
      rcases d x.2 with e' | e'
      · rw [cell_at c1] at e'; cases e'
      · exact (k x.2).mpr hx e'
    · intro a
      rw [e, List.map_cons, List.mem_cons]
      by_cases ha : a = x.2
      · simp [ha, join, cell_at c1]
      · simp only [join, cell_other c1 ha, Option.none_or, ha, false_or]
        exact k a
  | [], _ :: _, _, _, h, _ => h.elim
  | _ :: _, [], _, _, h, _ => h.elim

/-- A list is its nodes and its items. -/
theorem Lst.split {p : Ptr} {vs : List V} : ∀ h, Lst E p vs h → (ex fun xs => ex fun ls => Spine p xs ls ⋆ Cells E xs vs) h := by
  rintro h ⟨bs, ⟨xs, h1, h2, h3, h4⟩, h5⟩
  have hb : ∀ a, a ∈ bs ↔ a ∈ nodes p xs ++ xs.map (·.2) := by
    intro a
    rw [h3.mem_iff]
    cases xs with
    | nil => simp [blocks, nodes]
    | cons x xs => simp [blocks, nodes]
  have hn : (nodes p xs ++ xs.map (·.2)).Nodup := by
    have := h3.nodup_iff.mp h4
    cases xs with
    | nil => simp [nodes]
    | cons x xs => exact this
  rw [List.nodup_append] at hn
  obtain ⟨n1, n2, n3⟩ := hn
  refine ⟨xs, _, Mem.restrict h (· ∈ nodes p xs), Mem.restrict h (· ∈ xs.map (·.2)), ?_, ?_, ⟨?_, n1, ?_, rfl⟩, h2.toCells n2⟩
  · intro a
    by_cases e : a ∈ nodes p xs
    · exact .inr (by simp only [Mem.restrict]; exact if_neg fun e' => n3 a e a e' rfl)
    · exact .inl (by simp [Mem.restrict, e])
  · funext a
    by_cases e : a ∈ nodes p xs
    · cases hh : h a with
      | none => simp [join, Mem.restrict, e, hh]
      | some c => simp [join, Mem.restrict, e, hh]
    · by_cases e' : a ∈ xs.map (·.2)
      · simp only [join, Mem.restrict, if_neg e, if_pos e', Option.none_or]
      · simp only [join, Mem.restrict, if_neg e, if_neg e', Option.none_or]
        cases hh : h a with
        | none => rfl
        | some c =>
          have := (hb a).mp (h5 a (by rw [hh]; exact fun h => nomatch h))
          rw [List.mem_append] at this
          exact absurd this (by simp only [not_or]; exact ⟨e, e'⟩)
  · cases xs with
    | nil =>
      obtain ⟨n, g1, g2⟩ := h1
      exact ⟨n, by simp [Mem.restrict, nodes, g1], g2⟩
    | cons x xs =>
      obtain ⟨q1, q2, n, q3, q4⟩ := h1
      refine ⟨q1, q2.congr fun a ha n hn => ⟨n, ?_, rfl, rfl⟩, n, ?_, q4⟩
      · simp only [Mem.restrict]; exact (if_pos ha).trans hn
      · simp only [Mem.restrict]; exact (if_pos (by simp [nodes, q1])).trans q3
  · intro a ha
    by_cases e : a ∈ nodes p xs
    · exact e
    · exact absurd (by simp [Mem.restrict, e]) ha

theorem Lst.unsplit {p : Ptr} {xs : List (Ptr × Ptr)} {vs : List V} {ls : List String} : ∀ h, (Spine p xs ls ⋆ Cells E xs vs) h → Lst E p vs h := by
  rintro h ⟨h1, h2, d, e, s, c⟩
  have g1 : ∀ a c, h1 a = some c → h a = some c := fun a c ea => by rw [e]; simp [join, ea]
  have g2 : ∀ a c, h2 a = some c → h a = some c := fun a c ea => by
    rw [e]
    rcases d a with e' | e'
    · simp [join, e', ea]
    · rw [ea] at e'; cases e'
  obtain ⟨i1, i2, i3⟩ := c.toItems g2
  have al := s.alive
  obtain ⟨s1, s2, s3, _⟩ := s
  have hn : (nodes p xs ++ xs.map (·.2)).Nodup := by
    rw [List.nodup_append]
    refine ⟨s2, i2, fun a ha b hb e' => ?_⟩
    obtain ⟨n, k⟩ := al a ha
    rcases d a with e'' | e''
    · rw [k] at e''; cases e''
    · exact (i3 a).mpr (e' ▸ hb) e''
  have hb : nodes p xs ++ xs.map (·.2) = blocks p xs := by
    cases xs with
    | nil => simp [blocks, nodes]
    | cons x xs => rfl
  refine ⟨nodes p xs ++ xs.map (·.2), ⟨xs, ?_, i1, by rw [hb], hn⟩, ?_⟩
  · cases xs with
    | nil =>
      obtain ⟨n, k1, k2⟩ := s1
      exact ⟨n, g1 _ _ k1, k2⟩
    | cons x xs =>
      obtain ⟨q1, q2, n, q3, q4⟩ := s1
      exact ⟨q1, q2.congr fun a _ n hn => ⟨n, g1 _ _ hn, rfl, rfl⟩, n, g1 _ _ q3, q4⟩
  · intro a ha
    rw [List.mem_append]
    cases k : h1 a with
    | some c => exact .inl (s3 a (by rw [k]; exact fun h => nomatch h))
    | none =>
      refine .inr ((i3 a).mp fun k' => ha ?_)
      rw [e]; simp [join, k, k']

end

/-! ### Blocks -/

/-- There are `n` blocks. -/
def Blocks (n : Nat) : Asn := fun h => ∃ l : List Ptr, l.Nodup ∧ l.length = n ∧ ∀ a, h a ≠ none ↔ a ∈ l

theorem Blocks.star {n k : Nat} : ∀ h, (Blocks n ⋆ Blocks k) h → Blocks (n + k) h := by
  rintro h ⟨h1, h2, d, e, ⟨l1, a1, a2, a3⟩, l2, b1, b2, b3⟩
  refine ⟨l1 ++ l2, ?_, by rw [List.length_append, a2, b2], ?_⟩
  · rw [List.nodup_append]
    refine ⟨a1, b1, fun a ha b hb e' => ?_⟩
    rcases d a with e | e
    · exact (a3 a).mpr ha e
    · exact (b3 a).mpr (e' ▸ hb) e
  · intro a
    rw [e, List.mem_append, ← a3, ← b3]
    cases k1 : h1 a with
    | none => simp [join, k1]
    | some c => simp [join, k1]

theorem Blocks.emp : ∀ h, emp h → Blocks 0 h := by
  intro h e
  exact ⟨[], by simp, rfl, fun a => by simp [show h = nothing from e, nothing]⟩

theorem Blocks.cell {p : Ptr} {c : Cell} : ∀ h, cell p c h → Blocks 1 h := by
  intro h e
  refine ⟨[p], by simp, rfl, fun a => ?_⟩
  by_cases n : a = p
  · simp [n, cell_at e]
  · simp [n, cell_other e n]

/-- The number of blocks of a list with `n` nodes. -/
def spineSize (n : Nat) : Nat := if n = 0 then 1 else n

theorem Blocks.spine {p : Ptr} {xs : List (Ptr × Ptr)} {ls : List String} : ∀ h, Spine p xs ls h → Blocks (spineSize xs.length) h := by
  intro h s
  refine ⟨nodes p xs, s.2.1, ?_, fun a => ⟨s.2.2.1 a, fun ha => ?_⟩⟩
  · cases xs with
    | nil => rfl
    | cons x xs => simp [nodes, spineSize]
  · obtain ⟨n, e⟩ := s.alive a ha
    rw [e]; exact fun h => nomatch h

theorem Blocks.lst {V : Type} {E : Entry V} {p : Ptr} {vs : List V} : ∀ h, Lst E p vs h → Blocks (if vs.isEmpty then 1 else 2 * vs.length) h := by
  rintro h ⟨bs, h1, h2⟩
  exact ⟨bs, (by obtain ⟨_, _, _, _, n⟩ := h1; exact n), h1.count, fun a => ⟨h2 a, h1.alive a⟩⟩

end Ohcount.Mem
