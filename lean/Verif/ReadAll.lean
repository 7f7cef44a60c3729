import Verif.EmbedLines

/-!
C69: a parser reads its buffer to the end.  Scanners stop where no pattern matches; what follows is not counted.
-/

namespace Ohcount.Ragel
open Ohcount.Gram Ohcount.Cert

/-! ### Patterns of one byte -/

/-- The byte by itself is matched by a pattern, whatever the conditions. -/
def Nfa.single (N : Nfa) (b : Nat) : Bool :=
  N.start.any fun e => e.mask.has b && e.conds.isEmpty && e.lo == 0 && (N.final.getD e.to none).isSome

def Nfa.goesLf (N : Nfa) (i : Nat) : Bool :=
  (N.follow.getD i []).any fun e => e.mask.has 10 && e.conds.isEmpty && e.lo == 0 && (N.final.getD e.to none).isSome

/-- A carriage return is matched by a pattern: by itself, or if `newline` of common.rl:9 is one of the patterns. -/
def Nfa.singleCr (N : Nfa) : Bool :=
  N.single 13 ||
  ((N.start.any fun e => e.mask.has 13 && e.conds == [.crAlone] && e.lo == 0 && (N.final.getD e.to none).isSome) &&
    (N.start.any fun e => e.mask.has 13 && e.conds.isEmpty && e.lo == 0 && N.goesLf e.to) &&
    N.start.all fun e => !e.mask.has 13 || e.acts.all fun a => match a.2 with | .setEnt _ => true | _ => false)

/-- Every byte but the vertical tab is matched. -/
def Nfa.total (N : Nfa) : Bool := N.singleCr && (List.range 256).all fun b => b == 11 || b == 13 || N.single b

theorem read_mem_insNat {x y : Nat} : ∀ {l : List Nat}, y ∈ insNat x l ↔ y = x ∨ y ∈ l
  | [] => by simp [insNat]
  | z :: r => by
    unfold insNat
    split
    · simp
    · split
      · rename_i h1 h2
        have : x = z := by simpa using h2
        subst this; simp
      · simp [read_mem_insNat (l := r)]; grind

theorem read_mem_foldIns {es : List Edge} : ∀ {acc : List Nat} {y : Nat}, (y ∈ acc ∨ ∃ e ∈ es, e.to = y) → y ∈ es.foldl (fun acc e => insNat e.to acc) acc := by
  induction es with
  | nil => intro acc y h; simpa using h
  | cons e r ih =>
    intro acc y h
    rw [List.foldl_cons]
    apply ih
    rw [read_mem_insNat]
    rcases h with h | ⟨e', h, rfl⟩
    · exact .inl (.inr h)
    · rcases List.mem_cons.mp h with rfl | h
      · exact .inl (.inl rfl)
      · exact .inr ⟨e', h, rfl⟩

theorem read_mem_insAct {x y : OAct} : ∀ {l : List OAct}, y ∈ insAct x l → y = x ∨ y ∈ l
  | [] => by simp [insAct]
  | z :: r => by
    unfold insAct
    split
    · simp
    · split
      · intro h; exact .inr h
      · intro h
        rcases List.mem_cons.mp h with rfl | h
        · simp
        · rcases read_mem_insAct h with h | h
          · exact .inl h
          · exact .inr (by simp [h])

theorem read_mem_dedupActs {y : Act} : ∀ {l s : List Act}, y ∈ dedupActs s l → y ∈ l
  | [], _, h => by simp [dedupActs] at h
  | a :: r, s, h => by
    unfold dedupActs at h
    split at h
    · exact List.mem_cons_of_mem _ (read_mem_dedupActs h)
    · rcases List.mem_cons.mp h with rfl | h
      · simp
      · exact List.mem_cons_of_mem _ (read_mem_dedupActs h)

theorem read_mem_sortActs {y : Act} {l : List OAct} (h : y ∈ sortActs l) : ∃ x ∈ l, x.2 = y := by
  have h := read_mem_dedupActs h
  obtain ⟨x, hx, rfl⟩ := List.mem_map.mp h
  refine ⟨x, ?_, rfl⟩
  have key : ∀ (l acc : List OAct), x ∈ l.foldl (fun acc x => insAct x acc) acc → x ∈ acc ∨ x ∈ l := by
    intro l
    induction l with
    | nil => intro acc h; exact .inl h
    | cons z r ih =>
      intro acc h
      rw [List.foldl_cons] at h
      rcases ih _ h with h | h
      · rcases read_mem_insAct h with rfl | h
        · exact .inr (by simp)
        · exact .inl h
      · exact .inr (by simp [h])
  rcases key _ _ hx with h | h
  · cases h
  · exact h

theorem read_accepts_mem {N : Nfa} {q : State} {i : Nat} (h : i ∈ q) (hf : (N.final.getD i none).isSome = true) : (N.accepts q).isSome = true := by
  have step : ∀ (a b : Option Nat), a.isSome = true ∨ b.isSome = true → (Nfa.minOpt a b).isSome = true := by
    intro a b h
    cases a <;> cases b <;> simp [Nfa.minOpt] at h ⊢
  have key : ∀ (l : List Nat) (acc : Option Nat), (acc.isSome = true ∨ i ∈ l) →
      (l.foldl (fun acc i => Nfa.minOpt acc ((N.final.getD i none).map (·.1))) acc).isSome = true := by
    intro l
    induction l with
    | nil => intro acc h; simpa using h
    | cons z r ih =>
      intro acc h
      rw [List.foldl_cons]
      apply ih
      rcases h with h | h
      · exact .inl (step _ _ (.inl h))
      · rcases List.mem_cons.mp h with rfl | h
        · exact .inl (step _ _ (.inr (by simpa using hf)))
        · exact .inr h
  exact key q none (.inr h)

/-- An edge that cannot be removed is taken. -/
theorem read_delta_mem {N : Nfa} {q : State} {b : Nat} {cv : Cond → Bool} {e : Edge} (h : e ∈ N.edges q) (hb : e.mask.has b = true)
    (hc : e.conds.all cv = true) (hl : (e.lo == 0) = true) : ∃ q' as, N.delta q b cv = some (q', as) ∧ e.to ∈ q' := by
  have he : e ∈ N.enabled q b cv := by
    unfold Nfa.enabled
    rw [List.mem_filter]
    refine ⟨List.mem_filter.mpr ⟨h, by rw [hb, hc]; rfl⟩, ?_⟩
    rw [show e.lo = 0 by simpa using hl, Nat.zero_and]
    rfl
  unfold Nfa.delta
  cases hen : N.enabled q b cv with
  | nil => rw [hen] at he; cases he
  | cons x r =>
    rw [hen] at he
    exact ⟨_, _, rfl, read_mem_foldIns (.inr ⟨e, he, rfl⟩)⟩

/-- The actions of a transition are those of its edges. -/
theorem read_delta_acts {N : Nfa} {q q' : State} {b : Nat} {cv : Cond → Bool} {as : List Act} (h : N.delta q b cv = some (q', as)) {y : Act} (hy : y ∈ as) :
    ∃ e ∈ N.edges q, e.mask.has b = true ∧ ∃ x ∈ e.acts, x.2 = y := by
  unfold Nfa.delta at h
  cases hen : N.enabled q b cv with
  | nil => rw [hen] at h; cases h
  | cons e r =>
    rw [hen] at h
    simp only [Option.some.injEq, Prod.mk.injEq] at h
    obtain ⟨_, rfl⟩ := h
    obtain ⟨x, hx, rfl⟩ := read_mem_sortActs hy
    have hx : x ∈ (e :: r).flatMap (·.acts) := by
      unfold Nfa.beforeEnd at hx
      split at hx
      · split at hx
        · exact (List.mem_filter.mp hx).1
        · exact hx
      · exact hx
    obtain ⟨e', he', hx'⟩ := List.mem_flatMap.mp hx
    rw [← hen] at he'
    unfold Nfa.enabled at he'
    have he' := (List.mem_filter.mp he').1
    rw [List.mem_filter, Bool.and_eq_true] at he'
    exact ⟨e', he'.1, he'.2.1, x, hx', rfl⟩

theorem delta_single {N : Nfa} {b : Nat} (h : N.single b = true) (cv : Cond → Bool) :
    ∃ q' as, N.delta [] b cv = some (q', as) ∧ (N.accepts q').isSome = true := by
  unfold Nfa.single at h
  obtain ⟨e, he, h⟩ := List.any_eq_true.mp h
  simp only [Bool.and_eq_true] at h
  obtain ⟨⟨⟨h1, h2⟩, h3⟩, h4⟩ := h
  obtain ⟨q', as, g1, g2⟩ := read_delta_mem (N := N) (q := []) (cv := cv) (by exact he) h1 (by rw [List.isEmpty_iff.mp h2]; rfl) h3
  exact ⟨q', as, g1, read_accepts_mem g2 h4⟩

theorem delta_lf {N : Nfa} {q : State} {i : Nat} (hi : i ∈ q) (h : N.goesLf i = true) (cv : Cond → Bool) :
    ∃ q' as, N.delta q 10 cv = some (q', as) ∧ (N.accepts q').isSome = true := by
  unfold Nfa.goesLf at h
  obtain ⟨e, he, h⟩ := List.any_eq_true.mp h
  simp only [Bool.and_eq_true] at h
  obtain ⟨⟨⟨h1, h2⟩, h3⟩, h4⟩ := h
  have hq : e ∈ N.edges q := by
    unfold Nfa.edges
    cases q with
    | nil => cases hi
    | cons z r => exact List.mem_flatMap.mpr ⟨i, hi, he⟩
  obtain ⟨q', as, g1, g2⟩ := read_delta_mem (N := N) (cv := cv) hq h1 (by rw [List.isEmpty_iff.mp h2]; rfl) h3
  exact ⟨q', as, g1, read_accepts_mem g2 h4⟩

/-- What a scanner does with a carriage return. -/
theorem delta_crStart {N : Nfa} (h : N.singleCr = true) (buf : List Byte) (p : Nat) (d : Data) :
    ∃ q' as, N.delta [] 13 (condAt buf p d) = some (q', as) ∧
      ((N.accepts q').isSome = true ∨
        ((∃ i ∈ q', N.goesLf i = true) ∧ (buf[p + 1]? = some 10 ∨ buf[p + 1]? = none) ∧ ∀ a ∈ as, ∃ e, a = .setEnt e)) := by
  unfold Nfa.singleCr at h
  rw [Bool.or_eq_true] at h
  rcases h with h | h
  · obtain ⟨q', as, h1, h2⟩ := delta_single h (condAt buf p d)
    exact ⟨q', as, h1, .inl h2⟩
  · simp only [Bool.and_eq_true] at h
    obtain ⟨⟨h1, h2⟩, h3⟩ := h
    obtain ⟨e, he, h1⟩ := List.any_eq_true.mp h1
    obtain ⟨f, hf, h2⟩ := List.any_eq_true.mp h2
    simp only [Bool.and_eq_true] at h1 h2
    obtain ⟨⟨⟨e1, e2⟩, e3⟩, e4⟩ := h1
    obtain ⟨⟨⟨f1, f2⟩, f3⟩, f4⟩ := h2
    cases hc : condAt buf p d .crAlone with
    | true =>
      obtain ⟨q', as, g1, g2⟩ := read_delta_mem (N := N) (q := []) (cv := condAt buf p d) (by exact he) e1
        (by rw [show e.conds = [.crAlone] by simpa using e2]; simp [hc]) e3
      exact ⟨q', as, g1, .inl (read_accepts_mem g2 e4)⟩
    | false =>
      obtain ⟨q', as, g1, g2⟩ := read_delta_mem (N := N) (q := []) (cv := condAt buf p d) (by exact hf) f1 (by rw [List.isEmpty_iff.mp f2]; rfl) f3
      refine ⟨q', as, g1, .inr ⟨⟨f.to, g2, f4⟩, ?_, ?_⟩⟩
      · unfold condAt at hc
        cases hb : buf[p + 1]? with
        | none => exact .inr rfl
        | some b => rw [hb] at hc; simp only [bne_eq_false_iff_eq] at hc; rw [hc]; exact .inl rfl
      · intro a ha
        obtain ⟨x, hx, hx1, y, hy, rfl⟩ := read_delta_acts g1 ha
        have := List.all_eq_true.mp h3 x hx
        rw [hx1] at this
        have := List.all_eq_true.mp this y hy
        revert this
        cases y.2 <;> simp

/-- No byte of the buffer stops the scanner. -/
def Nfa.Takes (N : Nfa) (buf : List Byte) : Prop := N.total = true ∧ ((11 : Byte) ∈ buf → N.single 11 = true)

theorem Nfa.Takes.cr {N : Nfa} {buf : List Byte} (h : N.Takes buf) : N.singleCr = true := by
  have := h.1
  unfold Nfa.total at this
  rw [Bool.and_eq_true] at this
  exact this.1

theorem takes_spec {N : Nfa} {buf : List Byte} (h : N.Takes buf) {b : Byte} {p : Nat} (hb : buf[p]? = some b) : b = 13 ∨ N.single b.toNat = true := by
  obtain ⟨h, hv⟩ := h
  unfold Nfa.total at h
  rw [Bool.and_eq_true, List.all_eq_true] at h
  have := h.2 b.toNat (List.mem_range.mpr b.toNat_lt)
  simp only [Bool.or_eq_true, beq_iff_eq] at this
  rcases this with (h | h) | h
  · have : b = 11 := UInt8.toNat_inj.mp h
    subst this
    exact .inr (hv (List.mem_of_getElem? hb))
  · exact .inl (UInt8.toNat_inj.mp h)
  · exact .inr h

/-! ### Parsers of one language -/

/-- The scanner can go on: it is between tokens, or has matched something, or has read the first byte of `\r\n`. -/
def CanGo (N : Nfa) (buf : List Byte) (q : State) (p : Nat) (acc : Option Nat) : Prop :=
  q = [] ∨ acc.isSome = true ∨ ((∃ i ∈ q, N.goesLf i = true) ∧ (buf[p]? = some 10 ∨ buf[p]? = none))

/-- Without a transition, the scanner is at the end of the buffer or goes back. -/
theorem CanGo.stop {N : Nfa} {buf : List Byte} {q : State} {p : Nat} {acc : Option Nat} {d : Data} (hN : N.Takes buf)
    (h : CanGo N buf q p acc) (hd : ((buf[p]?).bind fun b => N.delta q b.toNat (condAt buf p d)) = none) : buf[p]? = none ∨ (q ≠ [] ∧ acc.isSome = true) := by
  cases hb : buf[p]? with
  | none => exact .inl rfl
  | some b =>
    right
    rw [hb, Option.bind_some] at hd
    rcases h with rfl | h | ⟨⟨i, hi, h⟩, g⟩
    · exfalso
      rcases takes_spec hN hb with rfl | h
      · obtain ⟨q', as, h1, _⟩ := delta_crStart hN.cr buf p d
        rw [show (13 : Byte).toNat = 13 from rfl, h1] at hd
        cases hd
      · obtain ⟨q', as, h1, _⟩ := delta_single h (condAt buf p d)
        rw [h1] at hd; cases hd
    · refine ⟨?_, h⟩
      rintro rfl
      rcases takes_spec hN hb with rfl | h
      · obtain ⟨q', as, h1, _⟩ := delta_crStart hN.cr buf p d
        rw [show (13 : Byte).toNat = 13 from rfl, h1] at hd
        cases hd
      · obtain ⟨q', as, h1, _⟩ := delta_single h (condAt buf p d)
        rw [h1] at hd; cases hd
    · exfalso
      rw [hb] at g
      rcases g with g | g
      · cases g
        obtain ⟨q', as, h1, _⟩ := delta_lf hi h (condAt buf p d)
        rw [show (10 : Byte).toNat = 10 from rfl, h1] at hd
        cases hd
      · cases g

/-- After a transition. -/
theorem CanGo.next {N : Nfa} {buf : List Byte} {q : State} {p p' : Nat} {acc : Option Nat} {d : Data} (hN : N.Takes buf)
    (h : CanGo N buf q p acc) {b : Byte} (hb : buf[p]? = some b) {q' : State} {as : List Act}
    (hd : N.delta q b.toNat (condAt buf p d) = some (q', as)) (hp : (∀ a ∈ as, ∃ e, a = .setEnt e) → p' = p + 1) :
    CanGo N buf q' p' (if (N.accepts q').isSome then N.accepts q' else if q.isEmpty then none else acc) := by
  by_cases ha : (N.accepts q').isSome = true
  · rw [if_pos ha]; exact .inr (.inl ha)
  · rw [if_neg ha]
    by_cases hq : q = []
    · subst hq
      rcases takes_spec hN hb with rfl | g
      · obtain ⟨q2, as2, h1, h2⟩ := delta_crStart hN.cr buf p d
        rw [show (13 : Byte).toNat = 13 from rfl, h1] at hd
        cases hd
        rcases h2 with h2 | ⟨h2, h3, h4⟩
        · exact absurd h2 ha
        · exact .inr (.inr ⟨h2, by rw [hp h4]; exact h3⟩)
      · obtain ⟨q2, as2, h1, h2⟩ := delta_single g (condAt buf p d)
        rw [h1] at hd; cases hd
        exact absurd h2 ha
    · rw [show q.isEmpty = false by cases q <;> simp_all]
      rcases h with h | h | ⟨⟨i, hi, h⟩, g⟩
      · exact absurd h hq
      · exact .inr (.inl h)
      · rw [hb] at g
        rcases g with g | g
        · cases g
          obtain ⟨q2, as2, h1, h2⟩ := delta_lf hi h (condAt buf p d)
          rw [show (10 : Byte).toNat = 10 from rfl, h1] at hd
          cases hd
          exact absurd h2 ha
        · cases g

theorem acts_setEnt {M : Machine} {ts te : Nat} : ∀ {l : List Act} {s : Data × Nat}, (∀ a ∈ l, ∃ e, a = .setEnt e) → (M.acts ts te s l).2 = s.2
  | [], _, _ => rfl
  | a :: r, s, h => by
    obtain ⟨e, rfl⟩ := h a (by simp)
    show (M.acts ts te (M.act ts te s (.setEnt e)) r).2 = _
    rw [acts_setEnt fun a ha => h a (by simp [ha])]
    rfl

theorem canGo_step {M : Machine} {buf : List Byte} (hN : M.nfa.Takes buf) {c c' : Cfg}
    (h : CanGo M.nfa buf c.q c.p c.acc) (hs : M.step buf c = some c') : CanGo M.nfa buf c'.q c'.p c'.acc := by
  have hf : ∀ {c'}, M.fallback c = some c' → c'.q = [] := by
    intro c' hf
    unfold Machine.fallback at hf
    split at hf
    · cases hf; rfl
    · split at hf
      · cases hf; rfl
      · cases hf
  unfold Machine.step at hs
  cases hb : buf[c.p]? with
  | none =>
    rw [hb] at hs
    dsimp only at hs
    split at hs
    · cases hs
    · exact .inl (hf hs)
  | some b =>
    rw [hb] at hs
    dsimp only at hs
    cases hd : M.nfa.delta c.q b.toNat (condAt buf c.p c.d) with
    | none =>
      rw [hd] at hs
      dsimp only at hs
      split at hs
      · cases hs
      · exact .inl (hf hs)
    | some y =>
      obtain ⟨q', as⟩ := y
      rw [hd] at hs
      dsimp only at hs
      split at hs
      · cases hs; exact .inl rfl
      · cases hs
        dsimp only
        exact h.next hN hb hd fun g => acts_setEnt g

theorem canGo_run {M : Machine} {buf : List Byte} (hN : M.nfa.Takes buf) : ∀ (n : Nat) {c : Cfg},
    CanGo M.nfa buf c.q c.p c.acc → CanGo M.nfa buf (M.run buf n c).q (M.run buf n c).p (M.run buf n c).acc
  | 0, _, h => h
  | n + 1, c, h => by
    have e : M.run buf (n + 1) c = match M.step buf c with | none => c | some c' => M.run buf n c' := rfl
    rw [e]
    cases hs : M.step buf c with
    | none => exact h
    | some c' => exact canGo_run hN n (canGo_step hN h hs)

/-- A scanner for which every byte but the vertical tab is matched reads its buffer to the end. -/
theorem exec_all {M : Machine} (C : SCert M) (l : Leftover) {buf : List Byte} (hN : M.nfa.Takes buf) :
    (exec M l buf).p = buf.length := by
  obtain ⟨hs, μ, hg⟩ := exec_final C l buf
  have hp : (exec M l buf).p ≤ buf.length := by cases hg <;> assumption
  have h : CanGo M.nfa buf (exec M l buf).q (exec M l buf).p (exec M l buf).acc := canGo_run hN (fuel buf.length) (.inl rfl)
  generalize exec M l buf = c at hs h hp
  have hd : ((buf[c.p]?).bind fun b => M.nfa.delta c.q b.toNat (condAt buf c.p c.d)) = none ∧ (c.q = [] ∨ c.acc = none) := by
    have hfb : (if c.q.isEmpty then none else M.fallback c) = none → (c.q = [] ∨ c.acc = none) := by
      intro g
      split at g
      · rename_i hq; exact .inl (List.isEmpty_iff.mp hq)
      · right
        unfold Machine.fallback at g
        cases ha : c.acc with
        | none => rfl
        | some k => rw [ha] at g; split at g <;> cases g
    unfold Machine.step at hs
    cases hb : buf[c.p]? with
    | none => rw [hb] at hs; exact ⟨rfl, hfb hs⟩
    | some b =>
      rw [hb] at hs
      dsimp only at hs
      rw [Option.bind_some]
      cases hd : M.nfa.delta c.q b.toNat (condAt buf c.p c.d) with
      | none => rw [hd] at hs; exact ⟨rfl, hfb hs⟩
      | some y =>
        rw [hd] at hs
        dsimp only at hs
        split at hs <;> cases hs
  rcases h.stop hN hd.1 with h | ⟨h1, h2⟩
  · rw [List.getElem?_eq_none_iff] at h; omega
  · rcases hd.2 with g | g
    · exact absurd g h1
    · rw [g] at h2; cases h2

/-! ### Parsers with embedded languages -/

theorem eacts_setEnt {M : Multi} {buf : List Byte} {ts : Nat} : ∀ {l : List Act} {s : ES}, (∀ a ∈ l, ∃ e, a = .setEnt e) → s.jump = none →
    (M.acts buf ts s l).np = s.np ∧ (M.acts buf ts s l).jump = none
  | [], _, _, hj => ⟨rfl, hj⟩
  | a :: r, s, h, hj => by
    obtain ⟨e, rfl⟩ := h a (by simp)
    unfold Multi.acts
    have e1 : (M.act buf ts s (.setEnt e)).jump = none := hj
    dsimp only
    rw [e1]
    exact eacts_setEnt (s := M.act buf ts s (.setEnt e)) (fun a ha => h a (by simp [ha])) e1

/-- As `CanGo`, for the machine that is running; callers go on between tokens. -/
def ECanGo (M : Multi) (buf : List Byte) (c : ECfg) : Prop :=
  CanGo (M.mach c.m).nfa buf c.q c.p c.acc

variable {M : Multi} {o : EOpt} {C : Certs M o}

theorem goOn_jump {c : ECfg} {q : State} {s : ES} {acc : Option Nat} {u : Nat × Bool} (hsc : ∀ u ∈ o.use, (M.mach u.1).scanner = true)
    (hst : StackOk C u c.stack) (hj : s.jump.isSome = true) (hb : (c.goOn q s acc).bad = false) : (c.goOn q s acc).q = [] := by
  unfold ECfg.goOn at hb ⊢
  dsimp only at hb ⊢
  cases hs : s.jump with
  | none => rw [hs] at hj; cases hj
  | some j =>
    rw [hs] at hb
    cases j with
    | goto m => rfl
    | call m =>
      dsimp only at hb ⊢
      split
      · rfl
      · rename_i h; rw [if_neg h] at hb; cases hb
    | ret =>
      dsimp only at hb ⊢
      cases hk : c.stack with
      | nil => rw [hk] at hb; cases hb
      | cons y r =>
        obtain ⟨m, q'⟩ := y
        show q' = []
        rw [hk] at hst
        cases hu : u.2 with
        | false => have := hst.1 hu; cases this
        | true =>
          obtain ⟨m', q2, e, hm, h⟩ := hst.2 hu
          cases e
          rcases h with h | h
          · exact h.2
          · rw [hsc _ hm] at h; cases h.1

theorem ecanGo_step (hsc : ∀ u ∈ o.use, (M.mach u.1).scanner = true) {buf : List Byte}
    (hN : ∀ u ∈ o.use, (M.mach u.1).nfa.Takes buf) (hT : o.tag = true → TagsClosed buf) {c c' : ECfg} {μ : Nat}
    (hg : EGood C buf buf.length c μ) (h : ECanGo M buf c) (hs : M.step buf c = some c') : ECanGo M buf c' := by
  obtain ⟨μ', _, hg'⟩ := estep_good rfl hT hg hs
  obtain ⟨u, hu, hm, hbad, hst, _⟩ := hg
  obtain ⟨u', _, _, hbad', _, _⟩ := hg'
  have hNc := hN u hu
  have hscc := hsc u hu
  rw [hm] at hNc hscc
  have hfin : ∀ {ts x te k}, M.finish buf c ts x te k = c' → ECanGo M buf c' := by
    intro ts x te k e
    left
    unfold Multi.finish at e
    generalize M.runEnd buf ts { x := x, np := te, te := te } ((M.mach c.m).ends.getD k .none) = s at e
    cases hj : s.jump with
    | none => rw [← e]; unfold ECfg.goOn; rw [hj]
    | some j =>
      rw [← e]
      exact goOn_jump (C := C) (u := u) hsc hst (by rw [hj]; rfl) (by rw [e]; exact hbad')
  unfold Multi.step at hs
  rw [hbad] at hs
  simp only [Bool.false_eq_true, if_false] at hs
  cases hd : (buf[c.p]?).bind fun b => (M.mach c.m).nfa.delta c.q b.toNat (condAt buf c.p c.x.d) with
  | none =>
    rw [hd] at hs
    dsimp only at hs
    split at hs
    · cases hs
    · unfold Multi.fallback at hs
      dsimp only at hs
      split at hs
      · cases hs; exact hfin rfl
      · split at hs
        · cases hs; exact hfin rfl
        · cases hs
  | some y =>
    obtain ⟨q', as⟩ := y
    rw [hd] at hs
    dsimp only at hs
    rw [hscc] at hs
    simp only [Bool.true_and, if_true] at hs
    generalize hse : M.acts buf _ _ as = s at hs
    split at hs
    · rename_i hj
      left
      cases hs
      exact goOn_jump (C := C) (u := u) hsc hst hj hbad'
    · rename_i hj
      have hj : s.jump = none := by simpa using hj
      split at hs
      · cases hs; exact hfin rfl
      · cases hs
        obtain ⟨b, hb, hd⟩ := Option.bind_eq_some_iff.mp hd
        unfold ECanGo ECfg.goOn
        rw [hj]
        dsimp only
        refine CanGo.next hNc h hb hd fun g => ?_
        rw [← hse]
        exact (eacts_setEnt g rfl).1

theorem ecanGo_run (hsc : ∀ u ∈ o.use, (M.mach u.1).scanner = true) {buf : List Byte}
    (hN : ∀ u ∈ o.use, (M.mach u.1).nfa.Takes buf) (hT : o.tag = true → TagsClosed buf) : ∀ (n : Nat) {c : ECfg} {μ : Nat}, EGood C buf buf.length c μ → ECanGo M buf c →
    ECanGo M buf (M.run buf n c)
  | 0, _, _, _, h => h
  | n + 1, c, μ, hg, h => by
    have e : M.run buf (n + 1) c = match M.step buf c with | none => c | some c' => M.run buf n c' := rfl
    rw [e]
    cases hs : M.step buf c with
    | none => exact h
    | some c' =>
      obtain ⟨μ', _, hg'⟩ := estep_good rfl hT hg hs
      exact ecanGo_run hsc hN hT n hg' (ecanGo_step hsc hN hT hg h hs)

/-- The same for a parser with embedded languages that consists of scanners only. -/
theorem eexec_all {P : EParser} {m : Nat} (hM : P.multi = M) (hu : (m, false) ∈ o.use) (hC : ∀ u ∈ o.use, Nonempty (MCert M o u)) (ho : o.tag = false)
    (hsc : ∀ u ∈ o.use, (M.mach u.1).scanner = true) (l : ELeft) {buf : List Byte} (hN : ∀ u ∈ o.use, (M.mach u.1).nfa.Takes buf) :
    (eexec P.multi m l buf).p = buf.length := by
  subst hM
  have C : Certs P.multi o := fun u hu => Classical.choice (hC u hu)
  have hT : o.tag = true → TagsClosed buf := fun h => by rw [ho] at h; cases h
  have h0 := einit_good (C := C) hu (hsc _ hu) l buf buf.length
  obtain ⟨hs, μ, hg⟩ := erun_good rfl hT (efuel buf.length) _ _ h0
    (by unfold efuel
        calc buf.length * (buf.length + 8) ≤ (buf.length + 2) * (buf.length + 8) := Nat.mul_le_mul_right _ (by omega)
          _ ≤ (buf.length + 2) * (2 * buf.length + 8) := Nat.mul_le_mul_left _ (by omega))
  have h : ECanGo P.multi buf (eexec P.multi m l buf) := ecanGo_run (C := C) hsc hN hT (efuel buf.length) h0 (.inl rfl)
  change P.multi.step buf (eexec P.multi m l buf) = none at hs
  change EGood C buf buf.length (eexec P.multi m l buf) μ at hg
  generalize eexec P.multi m l buf = c at hs h hg
  obtain ⟨u, hu', hm, hbad, hst, hpos⟩ := hg
  have hp : c.p ≤ buf.length := by cases hpos <;> assumption
  have hNc := hN u hu'
  have hscc := hsc u hu'
  rw [hm] at hNc hscc
  rw [step_none_iff, hbad, hscc] at hs
  rcases hs with hs | ⟨h1, h2⟩
  · cases hs
  · rcases h.stop hNc h1 with g | ⟨g1, g2⟩
    · rw [List.getElem?_eq_none_iff] at g; omega
    · rcases h2 with h2 | h2
      · simp at h2; exact absurd h2 g1
      · rw [h2.2] at g2; cases g2

/-! ### C69 -/

/-- The line parser reads buffers without vertical tab to the end (with a vertical tab, see C42). -/
def C69_full (P : Parser) : Prop := ∀ (l : Leftover) (buf : List Byte), (11 : Byte) ∉ buf → (exec P.line.machine l buf).p = buf.length

/-- The same for a parser with embedded languages. -/
def C69_full_mixed (P : EParser) : Prop := ∀ (l : ELeft) (buf : List Byte), (11 : Byte) ∉ buf → (eexec P.multi P.line l buf).p = buf.length


end Ohcount.Ragel
