import Verif.RagelCheck
import Verif.Gram.All

/-!
The entity callbacks: the tokens that a scanner reports are in order, and the scanner reads the whole buffer.
-/

namespace Ohcount.Ragel

/-! ### Specification -/

/-- The ranges are not empty, in order, and do not overlap; the first one starts at `x` or later. -/
def InOrder : (x : Nat) → List (Ent × Nat × Nat) → Prop
  | _, [] => True
  | x, (_, s, e) :: r => x ≤ s ∧ s < e ∧ InOrder e r

/-- The ranges are not empty and each one starts where the one before ends; together they are `[x, y)`. -/
def Tile : (x : Nat) → List (Ent × Nat × Nat) → (y : Nat) → Prop
  | x, [], y => x = y
  | x, (_, s, e) :: r, y => s = x ∧ s < e ∧ Tile e r y

theorem InOrder.append {k : Ent} {s e : Nat} (h3 : s < e) : ∀ {l : List (Ent × Nat × Nat)} {x : Nat}, InOrder x l → (∀ r ∈ l, r.2.2 ≤ s) → x ≤ s →
    InOrder x (l ++ [(k, s, e)])
  | [], _, _, _, h2 => ⟨h2, h3, trivial⟩
  | (_, a, b) :: l, _, h, h1, _ => ⟨h.1, h.2.1, InOrder.append h3 h.2.2 (fun r hr => h1 r (List.mem_cons_of_mem _ hr)) (h1 _ List.mem_cons_self)⟩

theorem Tile.append {k : Ent} {s e : Nat} (h3 : s < e) : ∀ {l : List (Ent × Nat × Nat)} {x : Nat}, Tile x l s → Tile x (l ++ [(k, s, e)]) e
  | [], _, h => by cases h; exact ⟨rfl, h3, rfl⟩
  | (_, a, b) :: l, _, h => ⟨h.1, h.2.1, Tile.append h3 h.2.2⟩

/-! ### What the automaton must satisfy -/

/-- The `fhold` actions of an edge. -/
def holdsOf (e : Edge) : List Nat := e.acts.filterMap fun x => match x.2 with | .fhold i => some i | _ => none

/-- No `fhold` on the first character of a token, and all others are the same action. -/
def holdOk (m : Nfa) : Bool :=
  m.start.all (fun e => (holdsOf e).isEmpty) &&
    match m.follow.flatten.flatMap holdsOf with
    | [] => true
    | i :: r => r.all (· == i)

/-- No `fhold` at all. -/
def noHold (m : Nfa) : Bool :=
  m.start.all (fun e => (holdsOf e).isEmpty) && m.follow.flatten.all fun e => (holdsOf e).isEmpty

/-- An edge that is taken whenever its character comes, and completes a pattern. -/
def freeEdge (m : Nfa) (e : Edge) : Bool := e.conds.isEmpty && decide (e.lo = 0) && (m.final.getD e.to none).isSome

/-- Every character alone matches a pattern. -/
def anyByte (m : Nfa) : Bool := decide (((m.start.filter (freeEdge m)).foldr (fun e a => e.mask ||| a) 0) = Cls.any)

/-! ### Actions of transitions -/

theorem mem_insAct {x y : OAct} : ∀ {l : List OAct}, y ∈ insAct x l → y = x ∨ y ∈ l
  | [], h => by simpa [insAct] using h
  | z :: l, h => by
    unfold insAct at h
    split at h
    · simpa using h
    · split at h
      · exact .inr h
      · rcases List.mem_cons.mp h with h | h
        · exact .inr (h ▸ List.mem_cons_self)
        · exact (mem_insAct h).imp id (List.mem_cons_of_mem _)

theorem mem_foldIns {y : OAct} : ∀ {l acc : List OAct}, y ∈ l.foldl (fun acc x => insAct x acc) acc → y ∈ l ∨ y ∈ acc
  | [], _, h => .inr h
  | x :: l, acc, h => by
    rcases mem_foldIns (l := l) h with h | h
    · exact .inl (List.mem_cons_of_mem _ h)
    · rcases mem_insAct h with h | h
      · exact .inl (h ▸ List.mem_cons_self)
      · exact .inr h

theorem dedup_spec : ∀ (l seen : List Act), (dedupActs seen l).Nodup ∧ ∀ a ∈ dedupActs seen l, a ∈ l ∧ a ∉ seen
  | [], _ => by simp [dedupActs]
  | x :: l, seen => by
    unfold dedupActs
    split
    · rename_i h
      obtain ⟨h1, h2⟩ := dedup_spec l seen
      exact ⟨h1, fun a ha => ⟨List.mem_cons_of_mem _ (h2 a ha).1, (h2 a ha).2⟩⟩
    · rename_i h
      obtain ⟨h1, h2⟩ := dedup_spec l (x :: seen)
      refine ⟨List.nodup_cons.mpr ⟨fun hx => (h2 x hx).2 List.mem_cons_self, h1⟩, fun a ha => ?_⟩
      rcases List.mem_cons.mp ha with rfl | ha
      · exact ⟨List.mem_cons_self, h⟩
      · exact ⟨List.mem_cons_of_mem _ (h2 a ha).1, fun hs => (h2 a ha).2 (List.mem_cons_of_mem _ hs)⟩

theorem mem_sortActs {a : Act} {l : List OAct} (h : a ∈ sortActs l) : ∃ k, (k, a) ∈ l := by
  have h1 := ((dedup_spec _ _).2 a h).1
  obtain ⟨x, hx, rfl⟩ := List.mem_map.mp h1
  rcases mem_foldIns hx with h2 | h2
  · exact ⟨x.1, h2⟩
  · cases h2

/-- The number of `fhold`s. -/
def holdsIn : List Act → Nat
  | [] => 0
  | .fhold _ :: l => holdsIn l + 1
  | _ :: l => holdsIn l

theorem holdsIn_zero : ∀ {l : List Act}, (∀ i, Act.fhold i ∉ l) → holdsIn l = 0
  | [], _ => rfl
  | a :: l, h => by
    have h1 := holdsIn_zero (l := l) fun i hi => h i (List.mem_cons_of_mem _ hi)
    cases a with
    | fhold i => exact absurd List.mem_cons_self (h i)
    | _ => exact h1

theorem holdsIn_one {i : Nat} : ∀ {l : List Act}, l.Nodup → (∀ j, Act.fhold j ∈ l → j = i) → holdsIn l ≤ 1
  | [], _, _ => by simp [holdsIn]
  | a :: l, hn, h => by
    obtain ⟨h0, hn⟩ := List.nodup_cons.mp hn
    have h1 := holdsIn_one hn fun j hj => h j (List.mem_cons_of_mem _ hj)
    cases a with
    | fhold j =>
      cases h j List.mem_cons_self
      have : holdsIn l = 0 := holdsIn_zero fun k hk => by
        cases h k (List.mem_cons_of_mem _ hk)
        exact h0 hk
      simp [holdsIn, this]
    | _ => exact h1

theorem acts_pos (M : Machine) (ts te : Nat) : ∀ (l : List Act) (d : Data) (p : Nat), (M.acts ts te (d, p) l).2 = p - holdsIn l
  | [], _, _ => rfl
  | a :: l, d, p => by
    unfold Machine.acts
    rw [List.foldl_cons]
    have ih := fun d p => acts_pos M ts te l d p
    unfold Machine.acts at ih
    cases a <;> simp only [Machine.act, holdsIn] <;> rw [ih]
    omega

theorem emit_ents (d : Data) (q : Bool) (k : Kind) (s : Option Nat) (e : Nat) : (d.emit q k s e).ents = d.ents := by
  cases s <;> cases q <;> rfl

theorem deq_ents (d : Data) : d.deq.ents = d.ents := by unfold Data.deq; split <;> rfl

theorem callback_ents (M : Machine) (d : Data) (p ts te : Nat) : (M.callback d p ts te).ents = d.ents := by
  unfold Machine.callback
  have hc : ∀ d : Data, (d.actCode ts).ents = d.ents := fun _ => rfl
  have hm : ∀ d : Data, (d.actComment ts).ents = d.ents := fun d => by unfold Data.actComment; split <;> rfl
  split
  · exact deq_ents d
  · exact (hc _).trans (deq_ents d)
  · exact (hm _).trans (deq_ents d)
  · unfold Data.stdInternalNewline
    dsimp only
    split
    · exact emit_ents ..
    · rfl
  · unfold Data.stdNewline
    dsimp only
    split
    · split
      · exact (emit_ents ..).trans (deq_ents d)
      · split <;> exact (emit_ents ..).trans (deq_ents d)
    · exact deq_ents d
  · rfl

theorem acts_ents (M : Machine) (ts te : Nat) : ∀ (l : List Act) (s : Data × Nat), (M.acts ts te s l).1.ents = s.1.ents
  | [], _ => rfl
  | a :: l, s => by
    have ih := acts_ents M ts te l (M.act ts te s a)
    unfold Machine.acts at ih ⊢
    rw [List.foldl_cons, ih]
    cases a <;> simp only [Machine.act]
    · rfl
    · unfold Data.actComment; split <;> rfl
    · rfl
    · unfold Data.actCommit; split <;> rfl
    · exact callback_ents ..

theorem mem_beforeEnd {m : Nfa} {q : State} {l : List OAct} {x : OAct} (h : x ∈ m.beforeEnd q l) : x ∈ l := by
  unfold Nfa.beforeEnd at h
  split at h
  · split at h
    · exact (List.mem_filter.mp h).1
    · exact h
  · exact h

theorem delta_acts {m : Nfa} {q : State} {b : Nat} {cv : Cond → Bool} {q' : State} {as : List Act} (h : m.delta q b cv = some (q', as)) :
    as.Nodup ∧ ∀ a ∈ as, ∃ e ∈ m.edges q, ∃ k, (k, a) ∈ e.acts := by
  have key : ∀ (es : List Edge) (p : State), (∀ e ∈ es, e ∈ m.edges q) → (sortActs (m.beforeEnd p (es.flatMap (·.acts)))).Nodup ∧
      ∀ a ∈ sortActs (m.beforeEnd p (es.flatMap (·.acts))), ∃ e ∈ m.edges q, ∃ k, (k, a) ∈ e.acts := by
    intro es p hes
    refine ⟨(dedup_spec _ _).1, fun a ha => ?_⟩
    obtain ⟨k, hk⟩ := mem_sortActs ha
    have hk := mem_beforeEnd hk
    obtain ⟨e, he, hk⟩ := List.mem_flatMap.mp hk
    exact ⟨e, hes e he, k, hk⟩
  have hsub : ∀ e ∈ m.enabled q b cv, e ∈ m.edges q := fun e he => by
    unfold Nfa.enabled at he
    exact (List.mem_filter.mp (List.mem_filter.mp he).1).1
  unfold Nfa.delta at h
  generalize m.enabled q b cv = es at h hsub
  cases es with
  | nil => cases h
  | cons e r =>
    simp only [Option.some.injEq, Prod.mk.injEq] at h
    rw [← h.2]
    exact key _ _ hsub

theorem mem_holdsOf {e : Edge} {k i : Nat} (h : (k, Act.fhold i) ∈ e.acts) : i ∈ holdsOf e :=
  List.mem_filterMap.mpr ⟨_, h, rfl⟩

theorem edges_follow {m : Nfa} {q : State} (hq : q ≠ []) {e : Edge} (h : e ∈ m.edges q) : e ∈ m.follow.flatten := by
  unfold Nfa.edges at h
  rw [if_neg (by simpa using hq)] at h
  obtain ⟨i, _, h⟩ := List.mem_flatMap.mp h
  rw [List.getD_eq_getElem?_getD] at h
  cases hf : m.follow[i]? with
  | none => rw [hf] at h; cases h
  | some l =>
    rw [hf] at h
    exact List.mem_flatten.mpr ⟨l, List.mem_of_getElem? hf, h⟩

/-- On the first character of a token there is no `fhold`, on the others at most one. -/
theorem delta_holds {m : Nfa} (hm : holdOk m = true) {q : State} {b : Nat} {cv : Cond → Bool} {q' : State} {as : List Act}
    (h : m.delta q b cv = some (q', as)) : (q = [] → holdsIn as = 0) ∧ holdsIn as ≤ 1 := by
  unfold holdOk at hm
  rw [Bool.and_eq_true, List.all_eq_true] at hm
  obtain ⟨h1, h2⟩ := delta_acts h
  have hz : q = [] → holdsIn as = 0 := by
    intro hq
    refine holdsIn_zero fun i hi => ?_
    obtain ⟨e, he, k, hk⟩ := h2 _ hi
    rw [hq] at he
    have := hm.1 e he
    have h3 := mem_holdsOf hk
    rw [List.isEmpty_iff] at this
    rw [this] at h3
    cases h3
  refine ⟨hz, ?_⟩
  by_cases hq : q = []
  · rw [hz hq]; omega
  · have hh := hm.2
    have hin : ∀ i, Act.fhold i ∈ as → i ∈ m.follow.flatten.flatMap holdsOf := by
      intro i hi
      obtain ⟨e, he, k, hk⟩ := h2 _ hi
      exact List.mem_flatMap.mpr ⟨e, edges_follow hq he, mem_holdsOf hk⟩
    generalize m.follow.flatten.flatMap holdsOf = L at hh hin
    cases L with
    | nil => rw [holdsIn_zero fun i hi => by cases hin i hi]; omega
    | cons i r =>
      rw [List.all_eq_true] at hh
      refine holdsIn_one (i := i) h1 fun j hj => ?_
      rcases List.mem_cons.mp (hin j hj) with h | h
      · exact h
      · exact beq_iff_eq.mp (hh j h)

theorem delta_noHold {m : Nfa} (hm : noHold m = true) {q : State} {b : Nat} {cv : Cond → Bool} {q' : State} {as : List Act}
    (h : m.delta q b cv = some (q', as)) : holdsIn as = 0 := by
  unfold noHold at hm
  rw [Bool.and_eq_true, List.all_eq_true, List.all_eq_true] at hm
  obtain ⟨_, h2⟩ := delta_acts h
  refine holdsIn_zero fun i hi => ?_
  obtain ⟨e, he, k, hk⟩ := h2 _ hi
  have h3 := mem_holdsOf hk
  have : (holdsOf e).isEmpty = true := by
    by_cases hq : q = []
    · rw [hq] at he; exact hm.1 e he
    · exact hm.2 e (edges_follow hq he)
  rw [List.isEmpty_iff] at this
  rw [this] at h3
  cases h3

theorem holdOk_of_noHold {m : Nfa} (hm : noHold m = true) : holdOk m = true := by
  unfold noHold at hm
  unfold holdOk
  rw [Bool.and_eq_true] at hm ⊢
  refine ⟨hm.1, ?_⟩
  have : m.follow.flatten.flatMap holdsOf = [] := by
    rw [List.flatMap_eq_nil_iff]
    intro e he
    exact List.isEmpty_iff.mp (List.all_eq_true.mp hm.2 e he)
  rw [this]

/-! ### Runs -/

/-- Where the current token starts, or the next one if none has been started. -/
def Cfg.base (c : Cfg) : Nat := if c.q = [] then c.p else c.ts

/-- What holds throughout a run. -/
structure EInv (n : Nat) (c : Cfg) : Prop where
  le : c.p ≤ n
  ts : c.q ≠ [] → c.ts < c.p
  acc : c.q ≠ [] → c.acc.isSome → c.ts < c.te ∧ c.te ≤ n
  order : InOrder 0 c.d.ents
  ends : ∀ x ∈ c.d.ents, x.2.2 ≤ c.base

theorem runEnd_ents (M : Machine) (d : Data) (ts te k : Nat) :
    (M.runEnd d ts te k).ents = d.ents ++ (match M.ends.getD k .none with | .ecb => [(d.ent, ts, te)] | _ => []) := by
  unfold Machine.runEnd
  cases M.ends.getD k .none
  · simp
  · simp [callback_ents]
  · rfl

theorem finish_inv {M : Machine} {n : Nat} {c : Cfg} {d : Data} {te k : Nat} (h1 : c.ts < te) (h2 : te ≤ n) (ho : InOrder 0 d.ents)
    (he : ∀ x ∈ d.ents, x.2.2 ≤ c.ts) : EInv n (M.finish c d te k) := by
  refine ⟨h2, fun h => absurd rfl h, fun h => absurd rfl h, ?_, ?_⟩
  · show InOrder 0 (M.runEnd d c.ts te k).ents
    rw [runEnd_ents]
    split
    · exact ho.append h1 he (Nat.zero_le _)
    · rw [List.append_nil]; exact ho
  · intro x hx
    have hx : x ∈ (M.runEnd d c.ts te k).ents := hx
    show x.2.2 ≤ te
    rw [runEnd_ents] at hx
    rcases List.mem_append.mp hx with hx | hx
    · exact Nat.le_trans (he x hx) (Nat.le_of_lt h1)
    · split at hx
      · rw [List.mem_singleton.mp hx]; exact Nat.le_refl _
      · cases hx

theorem fallback_inv {M : Machine} {n : Nat} {c c' : Cfg} (h : EInv n c) (hq : c.q ≠ []) (hs : M.fallback c = some c') : EInv n c' := by
  unfold Machine.fallback at hs
  have hb : c.base = c.ts := if_neg hq
  have hends := h.ends
  rw [hb] at hends
  split at hs
  · cases hs
    refine finish_inv (h.ts hq) h.le ?_ ?_
    · rw [acts_ents]; exact h.order
    · rw [acts_ents]; exact hends
  · split at hs
    · rename_i k hk
      cases hs
      obtain ⟨a1, a2⟩ := h.acc hq (by rw [hk]; rfl)
      have := finish_inv (M := M) (k := k) a1 a2 h.order hends
      exact ⟨this.le, this.ts, this.acc, this.order, this.ends⟩
    · cases hs

theorem step_inv {M : Machine} (hm : holdOk M.nfa = true) {buf : List Byte} {c c' : Cfg} (h : EInv buf.length c) (hs : M.step buf c = some c') :
    EInv buf.length c' := by
  unfold Machine.step at hs
  have hfb : ∀ {c'}, (if c.q.isEmpty then none else M.fallback c) = some c' → EInv buf.length c' := by
    intro c' hs
    split at hs
    · cases hs
    · rename_i hq
      exact fallback_inv h (by simpa using hq) hs
  cases hb : buf[c.p]? with
  | none => simp only [hb] at hs; exact hfb hs
  | some b =>
    have hlt : c.p < buf.length := (List.getElem?_eq_some_iff.mp hb).1
    simp only [hb] at hs
    cases hd : M.nfa.delta c.q b.toNat (condAt buf c.p c.d) with
    | none => simp only [hd] at hs; exact hfb hs
    | some x =>
      obtain ⟨q', as⟩ := x
      simp only [hd] at hs
      obtain ⟨z0, z1⟩ := delta_holds hm hd
      generalize hts : (if c.q.isEmpty then c.p else c.ts) = ts at hs
      have hbase : ts = c.base := by
        rw [← hts]; unfold Cfg.base
        by_cases hq : c.q = [] <;> simp [hq]
      have hle : ts < c.p + 1 - holdsIn as := by
        by_cases hq : c.q = []
        · rw [z0 hq, ← hts]; simp [hq]
        · have := h.ts hq
          have : ts = c.ts := by rw [← hts]; simp [hq]
          omega
      have hends := h.ends
      rw [← hbase] at hends
      split at hs
      · cases hs
        rw [acts_pos]
        refine finish_inv hle (by omega) ?_ ?_
        · rw [acts_ents]; exact h.order
        · rw [acts_ents]; exact hends
      · cases hs
        refine ⟨?_, ?_, ?_, ?_, ?_⟩
        · show (M.acts _ _ (c.d, c.p + 1) as).2 ≤ _
          rw [acts_pos]; omega
        · intro _
          show ts < (M.acts _ _ (c.d, c.p + 1) as).2
          rw [acts_pos]; exact hle
        · intro _ ha
          dsimp only at ha ⊢
          cases hk : M.nfa.accepts q' with
          | some k =>
            simp only [Option.isSome_some, if_true]
            exact ⟨by omega, hlt⟩
          | none =>
            simp only [hk, Option.isSome_none, Bool.false_eq_true, if_false] at ha ⊢
            by_cases hq : c.q = []
            · simp [hq] at ha
            · have hts' : ts = c.ts := by rw [← hts]; simp [hq]
              rw [if_neg (by simpa using hq)] at ha
              rw [hts']
              exact h.acc hq ha
        · show InOrder 0 (M.acts _ _ (c.d, c.p + 1) as).1.ents
          rw [acts_ents]; exact h.order
        · intro x hx
          have hx : x ∈ (M.acts ts (if (M.nfa.accepts q').isSome = true then c.p + 1 else c.te) (c.d, c.p + 1) as).1.ents := hx
          rw [acts_ents] at hx
          have h1 := hends x hx
          unfold Cfg.base
          dsimp only
          split
          · rw [acts_pos]; omega
          · exact h1

theorem run_inv {M : Machine} (hm : holdOk M.nfa = true) {buf : List Byte} : ∀ (k : Nat) (c : Cfg), EInv buf.length c → EInv buf.length (M.run buf k c)
  | 0, _, h => h
  | k + 1, c, h => by
    unfold Machine.run
    cases hs : M.step buf c with
    | none => exact h
    | some c' => exact run_inv hm k c' (step_inv hm h hs)

theorem init_inv (l : Leftover) (n : Nat) : EInv n (initCfg l) :=
  ⟨Nat.zero_le _, fun h => absurd rfl h, fun h => absurd rfl h, trivial, fun _ h => nomatch h⟩

/-! ### The whole buffer is read -/

theorem mem_insNat {x y : Nat} : ∀ {l : List Nat}, y ∈ insNat x l ↔ y = x ∨ y ∈ l
  | [] => by simp [insNat]
  | z :: l => by
    unfold insNat
    split
    · simp
    · split
      · rename_i h
        rw [beq_iff_eq] at h
        subst h
        simp
      · simp only [List.mem_cons, mem_insNat]
        constructor
        · rintro (h | h | h) <;> simp [h]
        · rintro (h | h | h) <;> simp [h]

theorem mem_foldNat : ∀ {es : List Edge} {acc : List Nat} {y : Nat}, y ∈ es.foldl (fun acc e => insNat e.to acc) acc ↔ (∃ e ∈ es, e.to = y) ∨ y ∈ acc
  | [], _, _ => by simp
  | e :: es, acc, y => by
    rw [List.foldl_cons, mem_foldNat, mem_insNat]
    constructor
    · rintro (⟨e', h, rfl⟩ | rfl | h)
      · exact .inl ⟨e', List.mem_cons_of_mem _ h, rfl⟩
      · exact .inl ⟨e, List.mem_cons_self, rfl⟩
      · exact .inr h
    · rintro (⟨e', h, rfl⟩ | h)
      · rcases List.mem_cons.mp h with rfl | h
        · exact .inr (.inl rfl)
        · exact .inl ⟨e', h, rfl⟩
      · exact .inr (.inr h)

theorem delta_mem {m : Nfa} {q : State} {b : Nat} {cv : Cond → Bool} {e : Edge} (h : e ∈ m.enabled q b cv) :
    ∃ q' as, m.delta q b cv = some (q', as) ∧ e.to ∈ q' := by
  unfold Nfa.delta
  generalize m.enabled q b cv = es at h
  cases es with
  | nil => cases h
  | cons x r => exact ⟨_, _, rfl, mem_foldNat.mpr (.inl ⟨e, h, rfl⟩)⟩

theorem delta_ne {m : Nfa} {q : State} {b : Nat} {cv : Cond → Bool} {q' : State} {as : List Act} (h : m.delta q b cv = some (q', as)) : q' ≠ [] := by
  have : ∃ e, e ∈ m.enabled q b cv := by
    unfold Nfa.delta at h
    generalize m.enabled q b cv = es at h
    cases es with
    | nil => cases h
    | cons x r => exact ⟨x, List.mem_cons_self⟩
  obtain ⟨e, he⟩ := this
  obtain ⟨q2, as2, h2, h3⟩ := delta_mem he
  rw [h] at h2
  cases h2
  intro h4
  rw [h4] at h3
  cases h3

theorem accepts_isSome {m : Nfa} {q : State} {i : Nat} (h : i ∈ q) (hf : (m.final.getD i none).isSome = true) : (m.accepts q).isSome = true := by
  have min1 : ∀ a b : Option Nat, a.isSome = true ∨ b.isSome = true → (Nfa.minOpt a b).isSome = true := by
    intro a b h
    cases a <;> cases b <;> simp_all [Nfa.minOpt]
  have key : ∀ (l : List Nat) (acc : Option Nat), (acc.isSome = true ∨ i ∈ l) →
      (l.foldl (fun acc i => Nfa.minOpt acc ((m.final.getD i none).map (·.1))) acc).isSome = true := by
    intro l
    induction l with
    | nil => intro acc h; simpa using h
    | cons x l ih =>
      intro acc h
      rw [List.foldl_cons]
      refine ih _ ?_
      rcases h with h | h
      · exact .inl (min1 _ _ (.inl h))
      · rcases List.mem_cons.mp h with rfl | h
        · exact .inl (min1 _ _ (.inr (by simpa using hf)))
        · exact .inr h
  exact key q none (.inr h)

theorem any_has (b : Nat) (h : b < 256) : Cls.has Cls.any b = true := by
  have : ∀ b : Fin 256, Cls.has Cls.any b = true := by decide +kernel
  exact this ⟨b, h⟩

/-- A token can start with any character, and is complete with it. -/
theorem start_any {m : Nfa} (hm : anyByte m = true) (b : Byte) (cv : Cond → Bool) :
    ∃ q' as, m.delta [] b.toNat cv = some (q', as) ∧ (m.accepts q').isSome = true := by
  unfold anyByte at hm
  rw [decide_eq_true_eq] at hm
  have key : ∀ l : List Edge, Cls.has (l.foldr (fun e a => e.mask ||| a) 0) b.toNat = true → ∃ e ∈ l, Cls.has e.mask b.toNat = true := by
    intro l
    induction l with
    | nil => intro h; rw [has_testBit] at h; simp at h
    | cons e l ih =>
      intro h
      rw [List.foldr_cons, has_testBit, Nat.testBit_or, Bool.or_eq_true] at h
      rcases h with h | h
      · exact ⟨e, List.mem_cons_self, by rw [has_testBit]; exact h⟩
      · obtain ⟨e', h1, h2⟩ := ih (by rw [has_testBit]; exact h)
        exact ⟨e', List.mem_cons_of_mem _ h1, h2⟩
  obtain ⟨e, he, h1⟩ := key _ (by rw [hm]; exact any_has _ b.toNat_lt)
  rw [List.mem_filter] at he
  obtain ⟨he, h⟩ := he
  simp only [freeEdge, Bool.and_eq_true, decide_eq_true_eq] at h
  obtain ⟨⟨h2, h3⟩, h4⟩ := h
  have hen : e ∈ m.enabled [] b.toNat cv := by
    unfold Nfa.enabled
    refine List.mem_filter.mpr ⟨List.mem_filter.mpr ⟨?_, ?_⟩, ?_⟩
    · unfold Nfa.edges; simpa using he
    · rw [h1, List.isEmpty_iff.mp h2]; rfl
    · rw [h3]; simp
  obtain ⟨q', as, hd, hq⟩ := delta_mem hen
  exact ⟨q', as, hd, accepts_isSome hq h4⟩

/-- Inside a token a match is known. -/
def Matched (c : Cfg) : Prop := c.q ≠ [] → c.acc.isSome = true

theorem fallback_some {M : Machine} {c : Cfg} (h : c.acc.isSome = true) : ∃ c', M.fallback c = some c' := by
  unfold Machine.fallback
  split
  · exact ⟨_, rfl⟩
  · split
    · exact ⟨_, rfl⟩
    · rename_i h2; rw [h2] at h; cases h

theorem fallback_q {M : Machine} {c c' : Cfg} (h : M.fallback c = some c') : c'.q = [] := by
  unfold Machine.fallback at h
  split at h
  · cases h; rfl
  · split at h
    · cases h; rfl
    · cases h

theorem step_matched {M : Machine} (ha : anyByte M.nfa = true) {buf : List Byte} {c c' : Cfg} (h : Matched c) (hs : M.step buf c = some c') : Matched c' := by
  unfold Machine.step at hs
  have hfb : ∀ {c'}, (if c.q.isEmpty then none else M.fallback c) = some c' → Matched c' := by
    intro c' hs
    split at hs
    · cases hs
    · exact fun hq => absurd (fallback_q hs) hq
  cases hb : buf[c.p]? with
  | none => simp only [hb] at hs; exact hfb hs
  | some b =>
    simp only [hb] at hs
    cases hd : M.nfa.delta c.q b.toNat (condAt buf c.p c.d) with
    | none => simp only [hd] at hs; exact hfb hs
    | some x =>
      obtain ⟨q', as⟩ := x
      simp only [hd] at hs
      split at hs
      · cases hs; exact fun hq => absurd rfl hq
      · cases hs
        intro _
        dsimp only
        cases hk : M.nfa.accepts q' with
        | some k => rfl
        | none =>
          simp only [Option.isSome_none, Bool.false_eq_true, if_false]
          by_cases hq : c.q = []
          · obtain ⟨q2, as2, h1, h2⟩ := start_any ha b (condAt buf c.p c.d)
            rw [hq, h1] at hd
            cases hd
            rw [hk] at h2
            cases h2
          · rw [if_neg (by simpa using hq)]
            exact h hq

/-- The scanner only stops at the end of the buffer. -/
theorem stop_end {M : Machine} (ha : anyByte M.nfa = true) {buf : List Byte} {c : Cfg} (h : Matched c) (hs : M.step buf c = none) :
    c.q = [] ∧ buf.length ≤ c.p := by
  unfold Machine.step at hs
  have hfb : (if c.q.isEmpty then none else M.fallback c) = none → c.q = [] := by
    intro hs
    apply Decidable.byContradiction
    intro hq
    rw [if_neg (by simpa using hq)] at hs
    obtain ⟨c', hc⟩ := fallback_some (M := M) (h hq)
    rw [hc] at hs
    cases hs
  cases hb : buf[c.p]? with
  | none =>
    simp only [hb] at hs
    exact ⟨hfb hs, List.getElem?_eq_none_iff.mp hb⟩
  | some b =>
    simp only [hb] at hs
    cases hd : M.nfa.delta c.q b.toNat (condAt buf c.p c.d) with
    | none =>
      simp only [hd] at hs
      have hq := hfb hs
      obtain ⟨q2, as2, h1, _⟩ := start_any ha b (condAt buf c.p c.d)
      rw [hq, h1] at hd
      cases hd
    | some x =>
      obtain ⟨q', as⟩ := x
      simp only [hd] at hs
      split at hs <;> cases hs

theorem run_matched {M : Machine} (ha : anyByte M.nfa = true) {buf : List Byte} : ∀ (k : Nat) (c : Cfg), Matched c → Matched (M.run buf k c)
  | 0, _, h => h
  | k + 1, c, h => by
    unfold Machine.run
    cases hs : M.step buf c with
    | none => exact h
    | some c' => exact run_matched ha k c' (step_matched ha h hs)

/-! ### The scanner stops -/

/-- Bounds the number of steps to come. -/
def mu (n : Nat) (c : Cfg) : Nat := (n - c.base) * (n + 2) + (n + 1 - (c.p - c.base))

theorem mu_start {n : Nat} {c c' : Cfg} (hle : c'.p ≤ n) (hq : c'.q = []) (hb : c.base < c'.p) (hp : c.p ≤ n) : mu n c' < mu n c := by
  have e : c'.base = c'.p := if_pos hq
  unfold mu
  rw [e, Nat.sub_self, Nat.sub_zero]
  have h1 : (n - c'.p + 1) * (n + 2) ≤ (n - c.base) * (n + 2) := Nat.mul_le_mul_right _ (by omega)
  rw [Nat.add_mul] at h1
  omega

theorem step_mu {M : Machine} (hm : noHold M.nfa = true) {buf : List Byte} {c c' : Cfg} (h : EInv buf.length c) (hs : M.step buf c = some c') :
    mu buf.length c' < mu buf.length c := by
  have h' := step_inv (holdOk_of_noHold hm) h hs
  have hbp : c.base ≤ c.p := by
    unfold Cfg.base
    split
    · exact Nat.le_refl _
    · rename_i hq; exact Nat.le_of_lt (h.ts hq)
  unfold Machine.step at hs
  have hfb : ∀ {c'}, (if c.q.isEmpty then none else M.fallback c) = some c' → EInv buf.length c' → mu buf.length c' < mu buf.length c := by
    intro c' hs h'
    split at hs
    · cases hs
    · rename_i hq
      have hq : c.q ≠ [] := by simpa using hq
      have hb : c.base = c.ts := if_neg hq
      refine mu_start h'.le (fallback_q hs) ?_ h.le
      rw [hb]
      unfold Machine.fallback at hs
      split at hs
      · cases hs; exact h.ts hq
      · split at hs
        · rename_i k hk
          cases hs
          exact (h.acc hq (by rw [hk]; rfl)).1
        · cases hs
  cases hb : buf[c.p]? with
  | none => simp only [hb] at hs; exact hfb hs h'
  | some b =>
    have hlt : c.p < buf.length := (List.getElem?_eq_some_iff.mp hb).1
    simp only [hb] at hs
    cases hd : M.nfa.delta c.q b.toNat (condAt buf c.p c.d) with
    | none => simp only [hd] at hs; exact hfb hs h'
    | some x =>
      obtain ⟨q', as⟩ := x
      simp only [hd] at hs
      have hz := delta_noHold hm hd
      generalize hts : (if c.q.isEmpty then c.p else c.ts) = ts at hs
      have hbase : ts = c.base := by
        rw [← hts]; unfold Cfg.base
        by_cases hq : c.q = [] <;> simp [hq]
      split at hs
      · cases hs
        refine mu_start h'.le rfl ?_ h.le
        show c.base < (M.acts _ _ (c.d, c.p + 1) as).2
        rw [acts_pos, hz]
        omega
      · cases hs
        have e1 : ∀ te acc raw, ({ c with q := q', p := (M.acts ts te (c.d, c.p + 1) as).2, ts := ts, te := te, acc := acc, d := (M.acts ts te (c.d, c.p + 1) as).1, raw := raw } : Cfg).base = ts :=
          fun _ _ _ => if_neg (delta_ne hd)
        unfold mu
        rw [e1]
        dsimp only
        rw [acts_pos, hz, hbase]
        omega

theorem run_stops {M : Machine} (hm : noHold M.nfa = true) {buf : List Byte} : ∀ (k : Nat) (c : Cfg), EInv buf.length c → mu buf.length c ≤ k →
    M.step buf (M.run buf k c) = none
  | 0, c, h, hk => by
    have : 1 ≤ mu buf.length c := by
      unfold mu
      have := h.le
      omega
    omega
  | k + 1, c, h, hk => by
    unfold Machine.run
    cases hs : M.step buf c with
    | none => exact hs
    | some c' => exact run_stops hm k c' (step_inv (holdOk_of_noHold hm) h hs) (by have := step_mu hm h hs; omega)

theorem exec_entity {M : Machine} (hm : noHold M.nfa = true) (l : Leftover) (buf : List Byte) : M.step buf (exec M l buf) = none := by
  refine run_stops hm _ _ (init_inv l _) ?_
  have : (initCfg l).base = 0 := rfl
  unfold mu fuel
  rw [this, Nat.sub_zero, Nat.add_mul, Nat.mul_add, Nat.mul_add]
  show _ + (_ - (0 - 0)) ≤ _
  omega

/-! ### Tiling -/

/-- Every pattern reports its token. -/
def allEcb (M : Machine) : Bool := M.nfa.final.all fun x => match x with | some (k, _) => decide (M.ends.getD k .none = .ecb) | none => true

theorem accepts_ecb {M : Machine} (hm : allEcb M = true) {q : State} {k : Nat} (h : M.nfa.accepts q = some k) : M.ends.getD k .none = .ecb := by
  have hfin : ∀ i k, (M.nfa.final.getD i none).map (·.1) = some k → M.ends.getD k .none = .ecb := by
    intro i k hk
    rw [List.getD_eq_getElem?_getD] at hk
    cases hf : M.nfa.final[i]? with
    | none => rw [hf] at hk; cases hk
    | some x =>
      rw [hf] at hk
      have := List.all_eq_true.mp hm x (List.mem_of_getElem? hf)
      cases x with
      | none => cases hk
      | some y => cases hk; exact of_decide_eq_true this
  have min1 : ∀ a b : Option Nat, ∀ k, Nfa.minOpt a b = some k → a = some k ∨ b = some k := by
    intro a b k h
    cases a <;> cases b <;> simp only [Nfa.minOpt] at h
    · cases h
    · exact .inr h
    · exact .inl h
    · split at h
      · exact .inl h
      · exact .inr h
  have key : ∀ (l : List Nat) (acc : Option Nat), (∀ k, acc = some k → M.ends.getD k .none = .ecb) → ∀ k,
      l.foldl (fun acc i => Nfa.minOpt acc ((M.nfa.final.getD i none).map (·.1))) acc = some k → M.ends.getD k .none = .ecb := by
    intro l
    induction l with
    | nil => intro acc h k hk; exact h k hk
    | cons x l ih =>
      intro acc h k hk
      rw [List.foldl_cons] at hk
      refine ih _ ?_ k hk
      intro k hk
      rcases min1 _ _ _ hk with h1 | h1
      · exact h k h1
      · exact hfin _ _ h1
  exact key q none (by simp) k h

structure TInv (M : Machine) (c : Cfg) : Prop where
  tile : Tile 0 c.d.ents c.base
  acc : ∀ k, c.acc = some k → M.ends.getD k .none = .ecb

theorem finish_tile {M : Machine} {c : Cfg} {d : Data} {te k : Nat} (h1 : c.ts < te) (hk : M.ends.getD k .none = .ecb) (h : Tile 0 d.ents c.ts) :
    TInv M (M.finish c d te k) := by
  refine ⟨?_, fun k h => by cases h⟩
  show Tile 0 (M.runEnd d c.ts te k).ents te
  rw [runEnd_ents, hk]
  exact h.append h1

theorem step_tile {M : Machine} (hm : holdOk M.nfa = true) (he : allEcb M = true) {buf : List Byte} {c c' : Cfg} (h : EInv buf.length c) (ht : TInv M c)
    (hs : M.step buf c = some c') : TInv M c' := by
  unfold Machine.step at hs
  have hfb : ∀ {c'}, (if c.q.isEmpty then none else M.fallback c) = some c' → TInv M c' := by
    intro c' hs
    split at hs
    · cases hs
    · rename_i hq
      have hq : c.q ≠ [] := by simpa using hq
      have hb : c.base = c.ts := if_neg hq
      have htile := ht.tile
      rw [hb] at htile
      unfold Machine.fallback at hs
      split at hs
      · rename_i k hk
        cases hs
        refine finish_tile (h.ts hq) (accepts_ecb he hk) ?_
        rw [acts_ents]; exact htile
      · split at hs
        · rename_i k hk
          cases hs
          have := finish_tile (M := M) (k := k) (h.acc hq (by rw [hk]; rfl)).1 (ht.acc k hk) htile
          exact ⟨this.tile, this.acc⟩
        · cases hs
  cases hb : buf[c.p]? with
  | none => simp only [hb] at hs; exact hfb hs
  | some b =>
    simp only [hb] at hs
    cases hd : M.nfa.delta c.q b.toNat (condAt buf c.p c.d) with
    | none => simp only [hd] at hs; exact hfb hs
    | some x =>
      obtain ⟨q', as⟩ := x
      simp only [hd] at hs
      obtain ⟨z0, z1⟩ := delta_holds hm hd
      generalize hts : (if c.q.isEmpty then c.p else c.ts) = ts at hs
      have hbase : ts = c.base := by
        rw [← hts]; unfold Cfg.base
        by_cases hq : c.q = [] <;> simp [hq]
      have hle : ts < c.p + 1 - holdsIn as := by
        by_cases hq : c.q = []
        · rw [z0 hq, ← hts]; simp [hq]
        · have := h.ts hq
          have : ts = c.ts := by rw [← hts]; simp [hq]
          omega
      have htile := ht.tile
      rw [← hbase] at htile
      split at hs
      · rename_i hl
        cases hs
        have hk : (M.nfa.accepts q').isSome = true := by
          unfold Nfa.isLast at hl
          simp only [Bool.and_eq_true] at hl
          exact hl.1.1
        obtain ⟨k, hk⟩ := Option.isSome_iff_exists.mp hk
        rw [hk, acts_pos]
        refine finish_tile hle (accepts_ecb he hk) ?_
        rw [acts_ents]; exact htile
      · cases hs
        refine ⟨?_, ?_⟩
        · unfold Cfg.base
          dsimp only
          rw [if_neg (delta_ne hd), acts_ents]
          exact htile
        · intro k hk
          dsimp only at hk
          split at hk
          · exact accepts_ecb he hk
          · split at hk
            · cases hk
            · exact ht.acc k hk

theorem run_tile {M : Machine} (hm : holdOk M.nfa = true) (he : allEcb M = true) {buf : List Byte} : ∀ (k : Nat) (c : Cfg), EInv buf.length c → TInv M c →
    TInv M (M.run buf k c)
  | 0, _, _, h => h
  | k + 1, c, h, ht => by
    unfold Machine.run
    cases hs : M.step buf c with
    | none => exact ht
    | some c' => exact run_tile hm he k c' (step_inv hm h hs) (step_tile hm he h ht hs)

/-! ### Checks without the table of following edges -/

/-- No `fhold` among the given actions. -/
def actsHold (l : List OAct) : Bool := l.all fun x => match x.2 with | .fhold _ => false | _ => true

theorem actsHold_append {a b : List OAct} (h1 : actsHold a = true) (h2 : actsHold b = true) : actsHold (a ++ b) = true := by
  unfold actsHold at *
  rw [List.all_append, h1, h2]; rfl

theorem holdsOf_of {e : Edge} (h : actsHold e.acts = true) : (holdsOf e).isEmpty = true := by
  rw [List.isEmpty_iff, holdsOf, List.filterMap_eq_nil_iff]
  intro x hx
  have := List.all_eq_true.mp h x hx
  rcases x with ⟨n, a⟩
  cases a <;> first | rfl | cases this

/-- No `fhold` in the walked expressions. -/
def fragsHold (fs : List Frag) : Bool :=
  fs.all fun f => f.first.all (fun x => actsHold x.2) && f.ps.all (fun p => actsHold p.acts) && f.es.all fun x => actsHold x.2.2

theorem noHold_of_frags {S : Scanner} (h : fragsHold (walkAll (S.pats.map (·.1)) 0 0 0) = true) : noHold S.machine.nfa = true := by
  show noHold (build (S.pats.map (·.1))) = true
  revert h
  unfold build
  generalize walkAll (S.pats.map (·.1)) 0 0 0 = fs
  intro h
  have hf := fun f hf => List.all_eq_true.mp h f hf
  simp only [Bool.and_eq_true] at hf
  have hps : ∀ j, actsHold ((fs.flatMap Frag.ps).getD j (PosData.mk 0 [] [] 0 0)).acts = true := by
    intro j
    rw [List.getD_eq_getElem?_getD]
    cases hj : (fs.flatMap Frag.ps)[j]? with
    | none => rfl
    | some x =>
      obtain ⟨f, h1, h2⟩ := List.mem_flatMap.mp (List.mem_of_getElem? hj)
      exact List.all_eq_true.mp (hf f h1).1.2 x h2
  have hmk : ∀ j a, actsHold a = true → (holdsOf (mkEdge (fs.flatMap Frag.ps) j a)).isEmpty = true :=
    fun j a ha => holdsOf_of (actsHold_append ha (hps j))
  unfold noHold
  rw [Bool.and_eq_true]
  refine ⟨List.all_eq_true.mpr ?_, List.all_eq_true.mpr ?_⟩
  · intro e he
    obtain ⟨f, h1, h2⟩ := List.mem_flatMap.mp he
    obtain ⟨⟨j, a⟩, h3, rfl⟩ := List.mem_map.mp h2
    exact hmk j a (List.all_eq_true.mp (hf f h1).1.1 _ h3)
  · intro e he
    obtain ⟨l, h1, h2⟩ := List.mem_flatten.mp he
    obtain ⟨i, -, rfl⟩ := List.mem_map.mp h1
    obtain ⟨⟨a, j, b⟩, h3, rfl⟩ := List.mem_map.mp h2
    obtain ⟨f, h4, h5⟩ := List.mem_flatMap.mp (List.mem_filter.mp h3).1
    exact hmk j b (List.all_eq_true.mp (hf f h4).2 _ h5)

theorem finals_lt : ∀ (fs : List Frag) (n i k : Nat) (a : List OAct), (i, k, a) ∈ finals n fs → k < n + fs.length
  | [], _, _, _, _, h => nomatch h
  | f :: fs, n, i, k, a, h => by
    unfold finals at h
    rcases List.mem_append.mp h with h | h
    · obtain ⟨⟨x, y⟩, -, h⟩ := List.mem_map.mp h
      cases h
      simp
    · have := finals_lt fs _ _ _ _ h
      simp only [List.length_cons]
      omega

theorem walkAll_length : ∀ (l : List Rx) (n o g : Nat), (walkAll l n o g).length = l.length
  | [], _, _, _ => rfl
  | _ :: l, _, _, _ => by simp only [walkAll, List.length_cons, walkAll_length l]

theorem allEcb_of {S : Scanner} {n : Nat} (h : S.ends = List.replicate n .ecb) : allEcb S.machine = true := by
  have hn : S.pats.length = n := by
    have := congrArg List.length h
    simpa [Scanner.ends] using this
  unfold allEcb
  refine List.all_eq_true.mpr fun x hx => ?_
  rcases x with _ | ⟨k, a⟩
  · rfl
  · obtain ⟨i, -, h1⟩ := List.mem_map.mp hx
    obtain ⟨⟨j, y⟩, h2, h3⟩ := Option.map_eq_some_iff.mp h1
    cases h3
    have hk := finals_lt _ _ _ _ _ (List.mem_of_find?_eq_some h2)
    rw [walkAll_length, List.length_map, hn, Nat.zero_add] at hk
    show decide (S.ends.getD k .none = .ecb) = true
    rw [h, List.getD_eq_getElem?_getD, List.getElem?_replicate, if_pos hk]
    rfl

end Ohcount.Ragel
