import Verif.MemQueueLeft
import Verif.RagelEnts
/-
Parsers whose grammar has no `enqueue` leave the queue alone.
-/

namespace Ohcount.Queue

open Ragel

/-- The pattern has no action `enqueue`. -/
def Plain : Rx → Bool
  | .cls _ | .eps => true
  | .seq a b | .alt a b | .guard a b => Plain a && Plain b
  | .star a | .plus a | .opt a | .cond a _ => Plain a
  | .fin a x | .all a x | .ent a x | .leave a x => Plain a && x != .enqueue

def Quiet (l : List OAct) : Prop := ∀ o ∈ l, o.2 ≠ .enqueue

theorem Quiet.append {l l' : List OAct} (h : Quiet l) (h' : Quiet l') : Quiet (l ++ l') := by
  intro o ho
  rcases List.mem_append.1 ho with ho | ho
  · exact h o ho
  · exact h' o ho

theorem Quiet.one {k : Nat} {a : Act} (h : a ≠ .enqueue) : Quiet [(k, a)] := by
  intro o ho
  rw [List.mem_singleton.1 ho]
  exact h

theorem quiet_nil : Quiet [] := fun _ h => by cases h

structure FragOk (f : Frag) : Prop where
  first : ∀ x ∈ f.first, Quiet x.2
  last : ∀ x ∈ f.last, Quiet x.2
  ps : ∀ p ∈ f.ps, Quiet p.acts
  es : ∀ e ∈ f.es, Quiet e.2.2

theorem mem_mapIdx {f : Nat → PosData → PosData} {y : PosData} : ∀ {l : List PosData} {i : Nat}, y ∈ mapIdxFrom f i l → ∃ j, ∃ x ∈ l, y = f j x
  | [], _, h => by cases h
  | x :: r, i, h => by
    rcases List.mem_cons.1 h with h | h
    · exact ⟨i, x, List.mem_cons_self, h⟩
    · obtain ⟨j, z, hz, e⟩ := mem_mapIdx h
      exact ⟨j, z, List.mem_cons_of_mem _ hz, e⟩

theorem link_quiet {l f : List (Nat × List OAct)} (hl : ∀ x ∈ l, Quiet x.2) (hf : ∀ x ∈ f, Quiet x.2) : ∀ e ∈ link l f, Quiet e.2.2 := by
  intro e he
  unfold link at he
  obtain ⟨x, hx, he⟩ := List.mem_flatMap.1 he
  obtain ⟨y, hy, rfl⟩ := List.mem_map.1 he
  exact (hl x hx).append (hf y hy)

theorem mem_app {α : Type} {P : α → Prop} {l l' : List α} (h : ∀ x ∈ l, P x) (h' : ∀ x ∈ l', P x) : ∀ x ∈ l ++ l', P x := by
  intro x hx
  rcases List.mem_append.1 hx with hx | hx
  · exact h x hx
  · exact h' x hx

theorem mem_ite {α : Type} {P : α → Prop} {c : Bool} {l l' : List α} (h : ∀ x ∈ l, P x) (h' : ∀ x ∈ l', P x) : ∀ x ∈ (if c then l else l'), P x := by
  cases c
  · exact h'
  · exact h

theorem walk_quiet : ∀ (r : Rx) (n ord g : Nat), Plain r = true → FragOk (walk r n ord g)
  | .cls c, n, ord, g, _ => by
    refine ⟨?_, ?_, ?_, ?_⟩ <;> intro x hx <;> simp [walk] at hx <;> subst hx <;> exact quiet_nil
  | .eps, _, _, _, _ => by
    refine ⟨?_, ?_, ?_, ?_⟩ <;> intro x hx <;> simp [walk] at hx
  | .seq a b, n, ord, g, h => by
    simp only [Plain, Bool.and_eq_true] at h
    have ha := walk_quiet a n ord g h.1
    have hb := walk_quiet b (n + (walk a n ord g).ps.length) (walk a n ord g).ord (walk a n ord g).g h.2
    exact ⟨mem_ite (mem_app ha.first hb.first) ha.first, mem_ite (mem_app ha.last hb.last) hb.last, mem_app ha.ps hb.ps,
      mem_app (mem_app ha.es hb.es) (link_quiet ha.last hb.first)⟩
  | .guard a b, n, ord, g, h => by
    simp only [Plain, Bool.and_eq_true] at h
    have ha := walk_quiet a n ord g h.1
    have hb := walk_quiet b (n + (walk a n ord g).ps.length) (walk a n ord g).ord (walk a n ord g).g h.2
    refine ⟨mem_ite (mem_app ha.first hb.first) ha.first, mem_ite (mem_app ha.last hb.last) hb.last, ?_,
      mem_app (mem_app ha.es hb.es) (link_quiet ha.last hb.first)⟩
    intro p hp
    obtain ⟨j, x, hx, rfl⟩ := mem_mapIdx hp
    have hq := mem_app (P := fun p : PosData => Quiet p.acts) ha.ps hb.ps x hx
    split
    · exact hq
    · split <;> exact hq
  | .alt a b, n, ord, g, h => by
    simp only [Plain, Bool.and_eq_true] at h
    have ha := walk_quiet a n ord g h.1
    have hb := walk_quiet b (n + (walk a n ord g).ps.length) (walk a n ord g).ord (walk a n ord g).g h.2
    exact ⟨mem_app ha.first hb.first, mem_app ha.last hb.last, mem_app ha.ps hb.ps, mem_app ha.es hb.es⟩
  | .star a, n, ord, g, h => by
    have ha := walk_quiet a n ord g h
    exact ⟨ha.first, ha.last, ha.ps, mem_app ha.es (link_quiet ha.last ha.first)⟩
  | .plus a, n, ord, g, h => by
    have ha := walk_quiet a n ord g h
    exact ⟨ha.first, ha.last, ha.ps, mem_app ha.es (link_quiet ha.last ha.first)⟩
  | .opt a, n, ord, g, h => by
    have ha := walk_quiet a n ord g h
    exact ⟨ha.first, ha.last, ha.ps, ha.es⟩
  | .fin a t, n, ord, g, h => by
    simp only [Plain, Bool.and_eq_true, bne_iff_ne, ne_eq] at h
    have ha := walk_quiet a n ord g h.1
    refine ⟨ha.first, ha.last, ?_, ha.es⟩
    intro p hp
    obtain ⟨j, x, hx, rfl⟩ := mem_mapIdx hp
    split
    · exact (ha.ps x hx).append (Quiet.one h.2)
    · exact ha.ps x hx
  | .all a t, n, ord, g, h => by
    simp only [Plain, Bool.and_eq_true, bne_iff_ne, ne_eq] at h
    have ha := walk_quiet a n ord g h.1
    refine ⟨ha.first, ha.last, ?_, ha.es⟩
    intro p hp
    obtain ⟨j, x, hx, rfl⟩ := mem_mapIdx hp
    exact (ha.ps x hx).append (Quiet.one h.2)
  | .ent a t, n, ord, g, h => by
    simp only [Plain, Bool.and_eq_true, bne_iff_ne, ne_eq] at h
    have ha := walk_quiet a n (ord + 1) g h.1
    refine ⟨?_, ha.last, ha.ps, ha.es⟩
    intro x hx
    obtain ⟨y, hy, rfl⟩ := List.mem_map.1 hx
    exact (ha.first y hy).append (Quiet.one h.2)
  | .leave a t, n, ord, g, h => by
    simp only [Plain, Bool.and_eq_true, bne_iff_ne, ne_eq] at h
    have ha := walk_quiet a n ord g h.1
    refine ⟨ha.first, ?_, ha.ps, ha.es⟩
    intro x hx
    obtain ⟨y, hy, rfl⟩ := List.mem_map.1 hx
    exact (ha.last y hy).append (Quiet.one h.2)
  | .cond a c, n, ord, g, h => by
    have ha := walk_quiet a n ord g h
    refine ⟨ha.first, ha.last, ?_, ha.es⟩
    intro p hp
    obtain ⟨j, x, hx, rfl⟩ := mem_mapIdx hp
    exact ha.ps x hx

theorem walkAll_quiet : ∀ (l : List Rx) (n ord g : Nat), l.all Plain = true → ∀ f ∈ walkAll l n ord g, FragOk f
  | [], _, _, _, _, _, hf => by cases hf
  | r :: rs, n, ord, g, h, f, hf => by
    simp only [List.all_cons, Bool.and_eq_true] at h
    rcases List.mem_cons.1 hf with rfl | hf
    · exact walk_quiet r n ord g h.1
    · exact walkAll_quiet rs _ _ _ h.2 f hf

/-- No transition and no end of a match runs `enqueue`. -/
structure QuietNfa (m : Nfa) : Prop where
  start : ∀ e ∈ m.start, Quiet e.acts
  follow : ∀ l ∈ m.follow, ∀ e ∈ l, Quiet e.acts
  final : ∀ x ∈ m.final, ∀ y, x = some y → Quiet y.2

theorem mkEdge_quiet {ps : List PosData} (hp : ∀ p ∈ ps, Quiet p.acts) (j : Nat) {a : List OAct} (ha : Quiet a) : Quiet (mkEdge ps j a).acts := by
  unfold mkEdge
  refine ha.append ?_
  rw [List.getD_eq_getElem?_getD]
  cases h : ps[j]? with
  | none => exact quiet_nil
  | some p => exact hp p (List.mem_of_getElem? h)

theorem finals_quiet : ∀ (l : List Frag) (k : Nat), (∀ f ∈ l, FragOk f) → ∀ x ∈ finals k l, Quiet x.2.2
  | [], _, _, _, hx => by cases hx
  | f :: r, k, h, x, hx => by
    rcases List.mem_append.1 hx with hx | hx
    · obtain ⟨y, hy, rfl⟩ := List.mem_map.1 hx
      exact (h f List.mem_cons_self).last y hy
    · exact finals_quiet r (k + 1) (fun f hf => h f (List.mem_cons_of_mem _ hf)) x hx

theorem build_quiet {pats : List Rx} (h : pats.all Plain = true) : QuietNfa (build pats) := by
  have hf := walkAll_quiet pats 0 0 0 h
  have hp : ∀ p ∈ (walkAll pats 0 0 0).flatMap (·.ps), Quiet p.acts := by
    intro p hp
    obtain ⟨f, hf', hp⟩ := List.mem_flatMap.1 hp
    exact (hf f hf').ps p hp
  refine ⟨?_, ?_, ?_⟩
  · intro e he
    obtain ⟨f, hf', he⟩ := List.mem_flatMap.1 he
    obtain ⟨x, hx, rfl⟩ := List.mem_map.1 he
    exact mkEdge_quiet hp _ ((hf f hf').first x hx)
  · intro l hl e he
    obtain ⟨i, _, rfl⟩ := List.mem_map.1 hl
    obtain ⟨x, hx, rfl⟩ := List.mem_map.1 he
    obtain ⟨f, hf', hx⟩ := List.mem_flatMap.1 (List.mem_filter.1 hx).1
    exact mkEdge_quiet hp _ ((hf f hf').es x hx)
  · intro x hx y hy
    obtain ⟨i, _, rfl⟩ := List.mem_map.1 hx
    cases hz : (finals 0 (walkAll pats 0 0 0)).find? fun e => e.1 == i with
    | none => rw [hz] at hy; cases hy
    | some z =>
      rw [hz] at hy
      cases hy
      exact finals_quiet _ 0 hf z (List.mem_of_find?_eq_some hz)

theorem QuietNfa.delta {m : Nfa} (hm : QuietNfa m) {q : State} {b : Nat} {cv : Cond → Bool} {q' : State} {as : List Act}
    (h : m.delta q b cv = some (q', as)) : Act.enqueue ∉ as := by
  intro ha
  obtain ⟨e, he, k, hk⟩ := (delta_acts h).2 _ ha
  unfold Nfa.edges at he
  split at he
  · exact hm.start e he _ hk rfl
  · obtain ⟨i, _, he⟩ := List.mem_flatMap.1 he
    rw [List.getD_eq_getElem?_getD] at he
    cases hl : m.follow[i]? with
    | none => rw [hl] at he; cases he
    | some l => rw [hl] at he; exact hm.follow l (List.mem_of_getElem? hl) e he _ hk rfl

theorem QuietNfa.leave {m : Nfa} (hm : QuietNfa m) (q : State) : Act.enqueue ∉ m.leaveActs q := by
  intro ha
  obtain ⟨k, hk⟩ := mem_sortActs ha
  obtain ⟨i, _, hk⟩ := List.mem_flatMap.1 hk
  rw [List.getD_eq_getElem?_getD] at hk
  cases hl : m.final[i]? with
  | none => rw [hl] at hk; cases hk
  | some x =>
    cases x with
    | none => rw [hl] at hk; cases hk
    | some y => rw [hl] at hk; exact hm.final _ (List.mem_of_getElem? hl) y rfl _ hk rfl

/-! ### Nothing is queued -/

/-- Nothing is in the queue or going to be. -/
def Clean (d : Data) : Prop := d.inq = false ∧ d.queue = []

theorem Even.clean {f : Data → Data} (hf : Even {} f) {d : Data} (h : Clean d) : Clean (f d) :=
  ⟨(hf d h.1 h.2).1, (hf d h.1 h.2).2.1⟩

theorem clean_callback (M : Machine) {d : Data} (h : Clean d) (p ts te : Nat) : Clean (M.callback d p ts te) := by
  unfold Machine.callback
  cases M.op d.ent with
  | ls => exact (even_mLs {} ts).clean h
  | code => exact (even_mCode {} ts).clean h
  | comment => exact (even_mComment {} ts).clean h
  | internalNewline => exact (even_internal {} p).clean h
  | newline => exact (even_newline {} ts te).clean h
  | nop => exact h

theorem clean_act (M : Machine) (ts te : Nat) {s : Data × Nat} (h : Clean s.1) {a : Act} (ha : a ≠ .enqueue) : Clean (M.act ts te s a).1 := by
  cases a with
  | enqueue => exact absurd rfl ha
  | comment => exact (even_actComment {} ts).clean h
  | commit => exact (even_commit {}).clean h
  | cb => exact clean_callback M h _ ts te
  | _ => exact h

theorem clean_acts (M : Machine) (ts te : Nat) : ∀ (as : List Act) {s : Data × Nat} (_ : Clean s.1), Act.enqueue ∉ as → Clean (M.acts ts te s as).1
  | [], _, h, _ => h
  | a :: r, s, h, ha => by
    simp only [List.mem_cons, not_or] at ha
    exact clean_acts M ts te r (s := M.act ts te s a) (clean_act M ts te h (Ne.symm ha.1)) ha.2

theorem clean_end (M : Machine) {d : Data} (h : Clean d) (ts te k : Nat) : Clean (M.runEnd d ts te k) := by
  unfold Machine.runEnd
  cases M.ends.getD k .none with
  | none => exact h
  | cb => exact clean_callback M h _ ts te
  | ecb => exact h

theorem clean_fallback {M : Machine} (hM : QuietNfa M.nfa) {c c' : Cfg} (h : Clean c.d) (hs : M.fallback c = some c') : Clean c'.d := by
  unfold Machine.fallback at hs
  cases ha : M.nfa.accepts c.q with
  | some k =>
    rw [ha] at hs
    cases hs
    exact clean_end M (clean_acts M c.ts c.te _ (s := (c.d, c.p + 1)) h (hM.leave c.q)) _ _ _
  | none =>
    rw [ha] at hs
    cases hc : c.acc with
    | none => rw [hc] at hs; cases hs
    | some k =>
      rw [hc] at hs
      cases hs
      exact clean_end M h _ _ _

theorem clean_step {M : Machine} (hM : QuietNfa M.nfa) (buf : List Byte) {c c' : Cfg} (h : Clean c.d) (hs : M.step buf c = some c') : Clean c'.d := by
  unfold Machine.step at hs
  cases hb : buf[c.p]? with
  | none =>
    rw [hb] at hs
    dsimp only at hs
    split at hs
    · cases hs
    · exact clean_fallback hM h hs
  | some b =>
    rw [hb] at hs
    dsimp only at hs
    cases hd : M.nfa.delta c.q b.toNat (condAt buf c.p c.d) with
    | none =>
      rw [hd] at hs
      dsimp only at hs
      split at hs
      · cases hs
      · exact clean_fallback hM h hs
    | some x =>
      obtain ⟨q', as⟩ := x
      rw [hd] at hs
      dsimp only at hs
      have hc := clean_acts M (if c.q.isEmpty then c.p else c.ts) (if (M.nfa.accepts q').isSome then c.p + 1 else c.te) as (s := (c.d, c.p + 1)) h
        (hM.delta hd)
      cases hl : M.nfa.isLast q' with
      | true =>
        rw [hl] at hs
        cases hs
        exact clean_end M hc _ _ _
      | false =>
        rw [hl] at hs
        cases hs
        exact hc

theorem clean_run {M : Machine} (hM : QuietNfa M.nfa) (buf : List Byte) : ∀ (n : Nat) {c : Cfg}, Clean c.d → Clean (M.run buf n c).d
  | 0, _, h => h
  | n + 1, c, h => by
    unfold Machine.run
    cases hs : M.step buf c with
    | none => exact h
    | some c' => exact clean_run hM buf n (clean_step hM buf h hs)

/-- A scanner whose patterns have no `enqueue` leaves an empty queue empty. -/
theorem clean_exec {S : Scanner} (hS : (S.pats.map (·.1)).all Plain = true) (l : Leftover) (hl : l.queue = []) (buf : List Byte) :
    (exec S.machine l buf).d.queue = [] := by
  have h : Clean (exec S.machine {} buf).d := clean_run (build_quiet hS) buf (fuel buf.length) ⟨rfl, rfl⟩
  rcases rel_exec S.machine l buf with e | ⟨_, _, e⟩
  · rw [e]; exact h.2
  · rw [e]; exact hl

/-! ### Parsers with embedded languages -/

def EClean (x : EData) : Prop := x.d.inq = false ∧ x.d.queue = [] ∧ x.qlangs = []

theorem EEven.clean {f : EData → EData} (hf : EEven {} f) {x : EData} (h : EClean x) : EClean (f x) := (hf x h).1

theorem eclean_callback (M : Multi) (buf : List Byte) (lang ts : Nat) {s : ES} (h : EClean s.x) : EClean (M.callback buf lang ts s).x := by
  unfold Multi.callback
  dsimp only
  have hk : ∀ x, EData.embLang (estale x {}) lang = x.embLang lang := fun _ => rfl
  cases M.op lang s.x.d.ent with
  | ls => exact (even_upd (l := {}) (even_mLs {} ts) (fun _ => lang) fun _ => rfl).clean h
  | code => exact (even_upd (l := {}) (even_mCode {} ts) (fun _ => lang) fun _ => rfl).clean h
  | comment => exact (even_upd (l := {}) (even_mComment {} ts) (fun _ => lang) fun _ => rfl).clean h
  | internalNewline => exact (even_upd (l := {}) (even_internal {} (s.np - 1)) (fun _ => lang) fun _ => rfl).clean h
  | newline => exact (even_upd (l := {}) (even_newline {} ts s.te) (fun _ => lang) fun _ => rfl).clean h
  | embInternalNewline => exact (even_seen (even_upd (l := {}) (even_internal {} (s.np - 1)) (·.embLang lang) hk)).clean h
  | embNewline => exact (even_seen (even_upd (l := {}) (even_newline {} ts s.te) (·.embLang lang) hk)).clean h
  | checkBlank =>
    dsimp only
    cases blankEntry buf (s.np - 1) with
    | none => exact h
    | some p => exact (even_upd (l := {}) (even_newline {} ts (p + 1)) (fun _ => lang) fun _ => rfl).clean h
  | nop => exact h

theorem eclean_act (M : Multi) (buf : List Byte) (ts : Nat) {s : ES} (h : EClean s.x) {a : Act} (ha : a ≠ .enqueue) :
    EClean (M.act buf ts s a).x := by
  cases a with
  | enqueue => exact absurd rfl ha
  | comment => exact (even_d (l := {}) (even_actComment {} ts)).clean h
  | commit => exact (even_ecommit {}).clean h
  | cb => exact eclean_callback M buf 0 ts h
  | emb y =>
    cases y with
    | cb k => exact eclean_callback M buf k ts h
    | outry => exact (even_outry {}).clean h
    | eofCommit =>
      unfold Multi.act
      dsimp only
      split
      · exact (even_ecommit {}).clean h
      · exact h
    | _ => exact h
  | _ => exact h

theorem eclean_acts (M : Multi) (buf : List Byte) (ts : Nat) : ∀ (as : List Act) {s : ES} (_ : EClean s.x), Act.enqueue ∉ as →
    EClean (M.acts buf ts s as).x
  | [], _, h, _ => h
  | a :: r, s, h, ha => by
    simp only [List.mem_cons, not_or] at ha
    have h1 := eclean_act M buf ts h (Ne.symm ha.1)
    unfold Multi.acts
    dsimp only
    split
    · exact h1
    · exact eclean_acts M buf ts r h1 ha.2

theorem eclean_end (M : Multi) (buf : List Byte) (ts : Nat) {s : ES} (h : EClean s.x) (e : EEnd) : EClean (M.runEnd buf ts s e).x := by
  cases e with
  | cb k => exact eclean_callback M buf k ts h
  | _ => exact h

theorem eclean_finish (M : Multi) (buf : List Byte) (c : ECfg) (ts : Nat) {x : EData} (h : EClean x) (te k : Nat) :
    EClean (M.finish buf c ts x te k).x := by
  unfold Multi.finish
  rw [goOn_x]
  exact eclean_end M buf ts (s := { x := x, np := te, te := te }) h _

/-- No machine of the parser runs `enqueue`. -/
def QuietMulti (M : Multi) : Prop := ∀ m, QuietNfa (M.mach m).nfa

theorem eclean_fallback {M : Multi} (hM : QuietMulti M) (buf : List Byte) {c c' : ECfg} (h : EClean c.x) (hs : M.fallback buf c = some c') : EClean c'.x := by
  unfold Multi.fallback at hs
  dsimp only at hs
  cases ha : (M.mach c.m).nfa.accepts c.q with
  | some k =>
    rw [ha] at hs
    cases hs
    exact eclean_finish M buf c c.ts (eclean_acts M buf c.ts _ (s := { x := c.x, np := c.p + 1, te := c.te }) h ((hM c.m).leave c.q)) _ _
  | none =>
    rw [ha] at hs
    cases hc : c.acc with
    | none => rw [hc] at hs; cases hs
    | some k =>
      rw [hc] at hs
      cases hs
      exact eclean_finish M buf c c.ts h _ _

theorem eclean_step {M : Multi} (hM : QuietMulti M) (buf : List Byte) {c c' : ECfg} (h : EClean c.x) (hs : M.step buf c = some c') : EClean c'.x := by
  unfold Multi.step at hs
  dsimp only at hs
  split at hs
  · cases hs
  · cases hd : (buf[c.p]?).bind fun b => (M.mach c.m).nfa.delta c.q b.toNat (condAt buf c.p c.x.d) with
    | none =>
      rw [hd] at hs
      dsimp only at hs
      split at hs
      · cases hs
      · exact eclean_fallback hM buf h hs
    | some y =>
      obtain ⟨q', as⟩ := y
      have ha : Act.enqueue ∉ as := by
        obtain ⟨b, _, hd⟩ := Option.bind_eq_some_iff.1 hd
        exact (hM c.m).delta hd
      rw [hd] at hs
      dsimp only at hs
      generalize (if ((M.mach c.m).scanner && c.q.isEmpty) = true then c.p else c.ts) = ts at hs
      generalize (if (M.mach c.m).scanner = true then (M.mach c.m).nfa.accepts q' else none) = k at hs
      generalize ((M.mach c.m).scanner && (M.mach c.m).nfa.isLast q') = last at hs
      generalize (if (k.isSome && !last) = true then c.p + 1 else c.te) = te at hs
      have hc := eclean_acts M buf ts as (s := { x := c.x, np := c.p + 1, te := te }) h ha
      generalize M.acts buf ts { x := c.x, np := c.p + 1, te := te } as = s at hs hc
      cases hj : s.jump.isSome with
      | true =>
        rw [hj] at hs
        cases hs
        rw [goOn_x]
        exact hc
      | false =>
        rw [hj] at hs
        cases last with
        | true =>
          cases hs
          exact eclean_finish M buf c ts hc _ _
        | false =>
          cases hs
          rw [goOn_x]
          exact hc

theorem eclean_run {M : Multi} (hM : QuietMulti M) (buf : List Byte) : ∀ (n : Nat) {c : ECfg}, EClean c.x → EClean (M.run buf n c).x
  | 0, _, h => h
  | n + 1, c, h => by
    unfold Multi.run
    cases hs : M.step buf c with
    | none => exact h
    | some c' => exact eclean_run hM buf n (eclean_step hM buf h hs)

theorem quietMulti {P : EParser} (hP : P.machs.all fun S => (S.pats.map (·.1)).all Plain) : QuietMulti P.multi := by
  intro m
  unfold Multi.mach
  rw [List.getD_eq_getElem?_getD]
  cases h : P.multi.machs[m]? with
  | none => exact ⟨(fun e he => by cases he), (fun l hl => by cases hl), (fun x hx => by cases hx)⟩
  | some K =>
    obtain ⟨S, hS, rfl⟩ := List.mem_map.1 (List.mem_of_getElem? h)
    exact build_quiet (List.all_eq_true.1 hP S hS)

/-- A parser whose patterns have no `enqueue` leaves an empty queue empty. -/
theorem clean_eexec {P : EParser} (hP : P.machs.all fun S => (S.pats.map (·.1)).all Plain) (m : Nat) (l : ELeft) (hl : l.l.queue = []) (buf : List Byte) :
    (eexec P.multi m l buf).x.d.queue = [] := by
  have h : EClean (eexec P.multi m {} buf).x := eclean_run (quietMulti hP) buf (efuel buf.length) ⟨rfl, rfl, rfl⟩
  rcases rel_eexec P.multi m l buf with e | ⟨_, e⟩
  · rw [e]; exact h.2.1
  · rw [e]; exact hl

end Ohcount.Queue
