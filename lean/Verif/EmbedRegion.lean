import Verif.EmbedWhole

/-!
Inside of a region in an embedded language the parser of the page does what the parser of that language does with the text of the
region alone.  The two machines are related by a table of pairs of states (`RPair`), checked by `regOk`: the machine of the page has, in
addition to the patterns of the language, the patterns that end the region, which begin with certain bytes or pairs of bytes (`Exits`).
-/

namespace Ohcount.Ragel

/-- What a case of the `switch` does when no other language has been seen in the line. -/
def EOp.base : EOp → Option Op
  | .ls => some .ls
  | .code => some .code
  | .comment => some .comment
  | .internalNewline => some .internalNewline
  | .newline => some .newline
  | .embInternalNewline => some .internalNewline
  | .embNewline => some .newline
  | .checkBlank => none
  | .nop => some .nop

/-- The two callbacks have the same cases. -/
def opsOk (S : Machine) (M : Multi) (l : Nat) : Bool :=
  decide ((M.sws.getD l []).map (fun y : Ent × EOp => (y.1, y.2.base)) = S.sw.map fun y : Ent × Op => (y.1, some y.2))

theorem opsOk_find : ∀ {l1 : List (Ent × EOp)} {l2 : List (Ent × Op)}, l1.map (fun y : Ent × EOp => (y.1, y.2.base)) = l2.map (fun y : Ent × Op => (y.1, some y.2)) →
    ∀ e : Ent, (match l1.find? fun y : Ent × EOp => y.1 == e with | some y => y.2 | none => .nop).base =
      some (match l2.find? fun y : Ent × Op => y.1 == e with | some y => y.2 | none => .nop)
  | [], [], _, e => rfl
  | [], _ :: _, h, _ => by simp at h
  | _ :: _, [], h, _ => by simp at h
  | x :: l1, y :: l2, h, e => by
    simp only [List.map_cons, List.cons.injEq, Prod.mk.injEq] at h
    obtain ⟨⟨h1, h2⟩, h3⟩ := h
    simp only [List.find?_cons, h1]
    cases hb : y.1 == e with
    | true => exact h2
    | false => exact opsOk_find h3 e

theorem opsOk_spec {S : Machine} {M : Multi} {l : Nat} (h : opsOk S M l = true) (e : Ent) : (M.op l e).base = some (S.op e) :=
  opsOk_find (of_decide_eq_true h) e

/-- The variables of the parser of the language alone, and those of the parser of the page: as in `XRel`, all callbacks having the
language `l`; `a`: `entity`, if it is known. -/
structure GRel (k : Nat) (b : EData) (l : Nat) (a : Option Ent) (d : Data) (y : EData) : Prop where
  dr : VRel k b.d d y.d
  ent : ∀ e, a = some e → d.ent = e ∧ y.d.ent = e
  langs : y.langs = b.langs ++ List.replicate d.out.length l
  qlangs : d.inq = true → y.qlangs = List.replicate d.queue.length l
  elangs : y.elangs = b.elangs
  seen : y.seen = none ∨ y.seen = some l

namespace GRel
variable {k : Nat} {b : EData} {l : Nat} {a : Option Ent} {d : Data} {y : EData}

theorem upd (h : GRel k b l a d y) {d' e' : Data} (hd : VRel k b.d d' e') (hx : Ext d d') (h1 : d'.ent = d.ent) (h2 : e'.ent = y.d.ent) :
    GRel k b l a d' (y.upd l e') := by
  refine ⟨hd, fun e he => ?_, ?_, ?_, h.elangs, h.seen⟩
  · have := h.ent e he
    exact ⟨h1.trans this.1, h2.trans this.2⟩
  · unfold EData.upd
    dsimp only
    obtain ⟨o, ho⟩ := hx.out
    rw [h.langs, List.append_assoc, hd.outLen, h.dr.outLen, ho, List.length_append, List.replicate_append_replicate]
    congr 2
    omega
  · intro hi
    unfold EData.upd
    dsimp only
    obtain ⟨h0, o, ho⟩ := hx.que hi
    rw [h.qlangs h0, (h.dr.que h0).2.2.2, (hd.que hi).2.2.2, ho, List.replicate_append_replicate]
    congr 1
    simp

theorem embLang (h : GRel k b l a d y) : y.embLang l = l := by
  unfold EData.embLang
  rcases h.seen with g | g <;> rw [g]
  simp

theorem unsee (h : GRel k b l a d y) : GRel k b l a d { y with seen := none } := ⟨h.dr, h.ent, h.langs, h.qlangs, h.elangs, .inl rfl⟩

theorem forget (h : GRel k b l a d y) : GRel k b l none d y := ⟨h.dr, (fun _ g => nomatch g), h.langs, h.qlangs, h.elangs, h.seen⟩

theorem setD (h : GRel k b l a d y) {d' e' : Data} (hd : VRel k b.d d' e') (hi : d'.inq = d.inq) (ho : d'.out.length = d.out.length)
    (hq : d'.queue.length = d.queue.length) (h1 : d'.ent = d.ent) (h2 : e'.ent = y.d.ent) : GRel k b l a d' { y with d := e' } :=
  ⟨hd, fun e he => by have := h.ent e he; exact ⟨h1.trans this.1, h2.trans this.2⟩, by rw [ho]; exact h.langs,
    fun g => by rw [hq]; exact h.qlangs (by rw [← hi]; exact g), h.elangs, h.seen⟩

end GRel

section
variable {S : Machine} {M : Multi} {l : Nat} {B : List Byte} {k : Nat} {b : EData}

theorem callback_g (hops : opsOk S M l = true) {e : Ent} {d : Data} {t : ES} (h : GRel k b l (some e) d t.x) {p ts te : Nat}
    (hnp : t.np = p + 1 + k) (hte : S.op e = .newline → t.te = te + k) :
    GRel k b l (some e) (S.callback d p ts te) (M.callback B l (ts + k) t).x ∧ (M.callback B l (ts + k) t).np = t.np ∧
    (M.callback B l (ts + k) t).te = t.te ∧ (M.callback B l (ts + k) t).jump = t.jump := by
  obtain ⟨e1, e2⟩ := h.ent e rfl
  have hb := opsOk_spec hops e
  have hp : t.np - 1 = p + k := by omega
  unfold Multi.callback Machine.callback
  dsimp only
  rw [e1, e2, hp]
  cases ho : M.op l e with
  | ls => rw [ho] at hb; simp only [EOp.base, Option.some.injEq] at hb; rw [← hb]; exact ⟨h.upd (h.dr.mLs ts) (Ext.mLs _ _) (mLs_ent ..) (mLs_ent ..), rfl, rfl, rfl⟩
  | code => rw [ho] at hb; simp only [EOp.base, Option.some.injEq] at hb; rw [← hb]; exact ⟨h.upd (h.dr.mCode ts) (Ext.mCode _ _) (mCode_ent ..) (mCode_ent ..), rfl, rfl, rfl⟩
  | comment => rw [ho] at hb; simp only [EOp.base, Option.some.injEq] at hb; rw [← hb]; exact ⟨h.upd (h.dr.mComment ts) (Ext.mComment _ _) (mComment_ent ..) (mComment_ent ..), rfl, rfl, rfl⟩
  | internalNewline =>
    rw [ho] at hb; simp only [EOp.base, Option.some.injEq] at hb; rw [← hb]
    exact ⟨h.upd (h.dr.stdInternalNewline p) (Ext.stdInternalNewline _ _) (stdInternalNewline_ent ..) (stdInternalNewline_ent ..), rfl, rfl, rfl⟩
  | newline =>
    rw [ho] at hb; simp only [EOp.base, Option.some.injEq] at hb; rw [← hb]
    dsimp only
    rw [hte hb.symm]
    exact ⟨h.upd (h.dr.stdNewline ts te) (Ext.stdNewline _ _ _) (stdNewline_ent ..) (stdNewline_ent ..), rfl, rfl, rfl⟩
  | embInternalNewline =>
    rw [ho] at hb; simp only [EOp.base, Option.some.injEq] at hb; rw [← hb]
    dsimp only
    rw [h.embLang]
    exact ⟨(h.upd (h.dr.stdInternalNewline p) (Ext.stdInternalNewline _ _) (stdInternalNewline_ent ..) (stdInternalNewline_ent ..)).unsee, rfl, rfl, rfl⟩
  | embNewline =>
    rw [ho] at hb; simp only [EOp.base, Option.some.injEq] at hb; rw [← hb]
    dsimp only
    rw [h.embLang, hte hb.symm]
    exact ⟨(h.upd (h.dr.stdNewline ts te) (Ext.stdNewline _ _ _) (stdNewline_ent ..) (stdNewline_ent ..)).unsee, rfl, rfl, rfl⟩
  | checkBlank => rw [ho] at hb; simp [EOp.base] at hb
  | nop => rw [ho] at hb; simp only [EOp.base, Option.some.injEq] at hb; rw [← hb]; exact ⟨h, rfl, rfl, rfl⟩

/-- The actions are the same, but for the names of the callbacks; a callback comes only when `entity` is known, and does not use `te`. -/
def regActs (S : Machine) (l : Nat) : Option Ent → List Act → List Act → Option (Option Ent)
  | a, [], [] => some a
  | _, .setEnt e :: r, .setEnt e' :: r' => if e = e' then regActs S l (some e) r r' else none
  | some e, .cb :: r, .emb (.cb l') :: r' => if l' = l ∧ S.op e ≠ .newline then regActs S l (some e) r r' else none
  | a, .code :: r, .code :: r' => regActs S l a r r'
  | a, .comment :: r, .comment :: r' => regActs S l a r r'
  | a, .enqueue :: r, .enqueue :: r' => regActs S l a r r'
  | a, .commit :: r, .commit :: r' => regActs S l a r r'
  | a, .nestRes :: r, .nestRes :: r' => regActs S l a r r'
  | a, .nestInc :: r, .nestInc :: r' => regActs S l a r r'
  | a, .nestDec :: r, .nestDec :: r' => regActs S l a r r'
  | _, _, _ => none

theorem acts_g (hops : opsOk S M l = true) {ts te : Nat} : ∀ {as as' : List Act} {a a' : Option Ent} {d : Data} {np : Nat} {t : ES},
    regActs S l a as as' = some a' → GRel k b l a d t.x → t.np = np + k → 1 ≤ np → t.jump = none →
    GRel k b l a' (S.acts ts te (d, np) as).1 (M.acts B (ts + k) t as').x ∧ (S.acts ts te (d, np) as).2 = np ∧
    (M.acts B (ts + k) t as').np = t.np ∧ (M.acts B (ts + k) t as').te = t.te ∧ (M.acts B (ts + k) t as').jump = none
  | as, as', a, a', d, np, t, hr, h, hnp, hpos, hj => by
    have key : ∀ {x x' : Act} {r r' : List Act} {a1 : Option Ent}, regActs S l a1 r r' = some a' →
        GRel k b l a1 (S.act ts te (d, np) x).1 (M.act B (ts + k) t x').x → (S.act ts te (d, np) x).2 = np →
        (M.act B (ts + k) t x').np = t.np → (M.act B (ts + k) t x').te = t.te → (M.act B (ts + k) t x').jump = none →
        r.length < as.length →
        GRel k b l a' (S.acts ts te (d, np) (x :: r)).1 (M.acts B (ts + k) t (x' :: r')).x ∧ (S.acts ts te (d, np) (x :: r)).2 = np ∧
        (M.acts B (ts + k) t (x' :: r')).np = t.np ∧ (M.acts B (ts + k) t (x' :: r')).te = t.te ∧ (M.acts B (ts + k) t (x' :: r')).jump = none := by
      intro x x' r r' a1 h1 h2 h3 h4 h5 h6 _
      have e1 : S.acts ts te (d, np) (x :: r) = S.acts ts te ((S.act ts te (d, np) x).1, np) r := by
        show S.acts ts te (S.act ts te (d, np) x) r = _
        congr 1
        exact Prod.ext rfl h3
      have e2 : M.acts B (ts + k) t (x' :: r') = M.acts B (ts + k) (M.act B (ts + k) t x') r' := by
        conv => lhs; unfold Multi.acts
        simp [h6]
      rw [e1, e2]
      have := acts_g hops (ts := ts) (te := te) h1 h2 (h4.trans hnp) hpos h6
      rw [h4, h5] at this
      exact this
    unfold regActs at hr
    split at hr
    · simp only [Option.some.injEq] at hr; subst hr; exact ⟨h, rfl, rfl, rfl, hj⟩
    · split at hr
      · rename_i he
        subst he
        refine key hr ?_ rfl rfl rfl hj (by simp)
        exact ⟨h.dr.setEnt _ _, fun e g => by cases g; exact ⟨rfl, rfl⟩, h.langs, h.qlangs, h.elangs, h.seen⟩
      · cases hr
    · split at hr
      · rename_i he
        obtain ⟨rfl, hne⟩ := he
        obtain ⟨c1, c2, c3, c4⟩ := callback_g (B := B) hops h (p := np - 1) (ts := ts) (te := te) (by omega) (fun g => absurd g hne)
        exact key hr c1 rfl c2 c3 (c4.trans hj) (by simp)
      · cases hr
    · exact key hr (h.setD (h.dr.actCode ts) rfl rfl rfl rfl rfl) rfl rfl rfl hj (by simp)
    · refine key hr (h.setD (h.dr.actComment ts) ?_ ?_ ?_ ?_ ?_) rfl rfl rfl hj (by simp)
      · unfold Machine.act Data.actComment; dsimp only; split <;> rfl
      · unfold Machine.act Data.actComment; dsimp only; split <;> rfl
      · unfold Machine.act Data.actComment; dsimp only; split <;> rfl
      · exact actComment_ent ..
      · exact actComment_ent ..
    · refine key hr ?_ rfl rfl rfl hj (by simp)
      exact ⟨h.dr.actEnqueue, h.ent, h.langs, fun _ => rfl, h.elangs, h.seen⟩
    · refine key hr ?_ rfl rfl rfl hj (by simp)
      unfold Multi.act Machine.act EData.actCommit
      dsimp only
      rw [h.dr.inq]
      split
      · rename_i hi
        refine ⟨h.dr.actCommit, fun e he => by rw [actCommit_ent, actCommit_ent]; exact h.ent e he, ?_, ?_, h.elangs, h.seen⟩
        · dsimp only
          unfold Data.actCommit
          rw [h.langs, h.qlangs hi, List.append_assoc, List.replicate_append_replicate, if_pos hi]
          simp
        · unfold Data.actCommit
          rw [if_pos hi]
          intro g; cases g
      · rename_i hi
        have : d.actCommit = d := by unfold Data.actCommit; rw [if_neg hi]
        rw [this]
        exact h
    · exact key hr (h.setD ⟨h.dr.ls, h.dr.lcc, h.dr.wlc, h.dr.inq, h.dr.que, rfl, h.dr.ind, h.dr.prior, h.dr.out, h.dr.ents, h.dr.ub⟩ rfl rfl rfl rfl rfl) rfl rfl rfl hj (by simp)
    · exact key hr (h.setD ⟨h.dr.ls, h.dr.lcc, h.dr.wlc, h.dr.inq, h.dr.que, by dsimp only; rw [h.dr.nest]; rfl, h.dr.ind, h.dr.prior, h.dr.out, h.dr.ents, h.dr.ub⟩ rfl rfl rfl rfl rfl) rfl rfl rfl hj (by simp)
    · exact key hr (h.setD ⟨h.dr.ls, h.dr.lcc, h.dr.wlc, h.dr.inq, h.dr.que, by dsimp only; rw [h.dr.nest]; rfl, h.dr.ind, h.dr.prior, h.dr.out, h.dr.ents, h.dr.ub⟩ rfl rfl rfl rfl rfl) rfl rfl rfl hj (by simp)
    · cases hr
termination_by as => as.length

/-- The end actions are the same. -/
def regEnd (l : Nat) : End → EEnd → Bool
  | .none, .none => true
  | .cb, .cb l' => l' == l
  | _, _ => false

/-- `entity` is known if it is needed. -/
def entOk (a : Option Ent) (e : End) : Bool := a.isSome || decide (e = .none)

theorem runEnd_g (hops : opsOk S M l = true) {K : EMach} {a : Option Ent} {d : Data} {y : EData} (h : GRel k b l a d y) {ts te i j : Nat} (hte : 1 ≤ te)
    (he : regEnd l (S.ends.getD i .none) (K.ends.getD j .none) = true) (ha : entOk a (S.ends.getD i .none) = true) :
    GRel k b l none (S.runEnd d ts te i) (M.runEnd B (ts + k) { x := y, np := te + k, te := te + k } (K.ends.getD j .none)).x ∧
    (M.runEnd B (ts + k) { x := y, np := te + k, te := te + k } (K.ends.getD j .none)).np = te + k ∧
    (M.runEnd B (ts + k) { x := y, np := te + k, te := te + k } (K.ends.getD j .none)).te = te + k ∧
    (M.runEnd B (ts + k) { x := y, np := te + k, te := te + k } (K.ends.getD j .none)).jump = none := by
  unfold Machine.runEnd
  revert he ha
  generalize S.ends.getD i .none = e
  generalize K.ends.getD j .none = e'
  intro he ha
  cases e with
  | none =>
    cases e' with
    | none => exact ⟨h.forget, rfl, rfl, rfl⟩
    | _ => simp [regEnd] at he
  | ecb => cases e' <;> simp [regEnd] at he
  | cb =>
    cases e' with
    | cb l' =>
      simp only [regEnd, beq_iff_eq] at he
      subst he
      cases a with
      | none => simp [entOk] at ha
      | some en =>
        obtain ⟨c1, c2, c3, c4⟩ := callback_g (B := B) hops (t := { x := y, np := te + k, te := te + k }) h (p := te - 1) (ts := ts) (te := te)
          (by dsimp only; omega) (fun _ => rfl)
        exact ⟨c1.forget, c2, c3, c4⟩
    | _ => simp [regEnd] at he

end

/-! ### The check -/

/-- What the end of the region begins with: one of the bytes, or one of the pairs of bytes. -/
structure Exits where
  bytes : List Nat := []
  pairs : List (Nat × Nat) := []
  deriving DecidableEq, Repr

/-- The text does not contain it. -/
def Exits.Free (X : Exits) (W : List Byte) : Prop :=
  (∀ x ∈ W, x.toNat ∉ X.bytes) ∧ ∀ (i : Nat) (x y : Byte), W[i]? = some x → W[i + 1]? = some y → (x.toNat, y.toNat) ∉ X.pairs

def Exits.marks (X : Exits) : List Nat := X.bytes ++ X.pairs.map (·.1) ++ X.pairs.map (·.2)

/-- Byte `b` after `f` ends the region. -/
def Exits.hit (X : Exits) (f b : Nat) : Bool := X.bytes.contains b || X.pairs.contains (f, b)

/-- What is kept of byte `b`: the first byte of a pair. -/
def Exits.keep (X : Exits) (b : Nat) : Nat := if X.pairs.any (·.1 == b) then b else 256

theorem Exits.hit_congr {X : Exits} {b b' : Nat} (h : ∀ x ∈ X.marks, (b' == x) = (b == x)) (f : Nat) : X.hit f b' = X.hit f b := by
  unfold Exits.hit
  congr 1
  · rw [Bool.eq_iff_iff]
    simp only [List.contains_iff_mem]
    constructor
    · intro g
      have := h b' (by simp [marks, g])
      rw [BEq.rfl, eq_comm, beq_iff_eq] at this
      rw [this]; exact g
    · intro g
      have := h b (by simp [marks, g])
      rw [BEq.rfl, beq_iff_eq] at this
      rw [this]; exact g
  · rw [Bool.eq_iff_iff]
    simp only [List.contains_iff_mem]
    constructor
    · intro g
      have := h b' (by simp only [marks, List.mem_append, List.mem_map]; exact .inr ⟨_, g, rfl⟩)
      rw [BEq.rfl, eq_comm, beq_iff_eq] at this
      rw [this]; exact g
    · intro g
      have := h b (by simp only [marks, List.mem_append, List.mem_map]; exact .inr ⟨_, g, rfl⟩)
      rw [BEq.rfl, beq_iff_eq] at this
      rw [this]; exact g

theorem Exits.keep_congr {X : Exits} {b b' : Nat} (h : ∀ x ∈ X.marks, (b' == x) = (b == x)) : X.keep b' = X.keep b := by
  have h1 : ∀ y ∈ X.pairs, (y.1 == b') = (y.1 == b) := by
    intro y hy
    have := h y.1 (by simp only [marks, List.mem_append, List.mem_map]; exact .inl (.inr ⟨_, hy, rfl⟩))
    rw [Bool.eq_iff_iff] at this ⊢
    simp only [beq_iff_eq] at this ⊢
    constructor
    · intro g; exact (this.mp g.symm).symm
    · intro g; exact (this.mpr g.symm).symm
  unfold Exits.keep
  have h2 : (X.pairs.any fun y => y.1 == b') = X.pairs.any fun y => y.1 == b := by
    rw [Bool.eq_iff_iff, List.any_eq_true, List.any_eq_true]
    constructor
    · rintro ⟨y, hy, g⟩; exact ⟨y, hy, by rw [← h1 y hy]; exact g⟩
    · rintro ⟨y, hy, g⟩; exact ⟨y, hy, by rw [h1 y hy]; exact g⟩
  rw [h2]
  split
  · rename_i g
    rw [List.any_eq_true] at g
    obtain ⟨y, hy, g⟩ := g
    have g' := h1 y hy
    rw [g] at g'
    simp only [beq_iff_eq] at g g'
    rw [← g, ← g']
  · rfl

/-- A state of the parser of the language and one of the machine of the page; `entity`, if known; the last byte read, if it is the first
byte of a pair that ends the region, or 256. -/
structure RPair where
  qs : State
  qe : State
  a : Option Ent
  f : Nat
  deriving DecidableEq, Repr

def bothConds (m m' : Nfa) (q q' : State) (b : Nat) : List Cond := (relConds m q b).foldr addCond (relConds m' q' b)

/-- Both match, or neither does. -/
def regAcc (S : Machine) (K : EMach) (l : Nat) : Option Nat → Option Nat → Bool
  | none, none => true
  | some i, some j => regEnd l (S.ends.getD i .none) (K.ends.getD j .none)
  | _, _ => false

/-- Both machines end the token. -/
def regBack (S : Machine) (K : EMach) (l : Nat) (r : RPair) : Bool :=
  match S.nfa.accepts r.qs, K.nfa.accepts r.qe with
  | some i, some j => match regActs S l r.a (S.nfa.leaveActs r.qs) (K.nfa.leaveActs r.qe) with
    | some a => regEnd l (S.ends.getD i .none) (K.ends.getD j .none) && entOk a (S.ends.getD i .none)
    | none => false
  | none, none => r.a.isSome
  | _, _ => false

/-- The machine of the page has read the first byte `f` of a pair, which ends a token of the language, and gives up looking for the end of
the region at the next byte. -/
def regLag (K : EMach) (X : Exits) (reps : List Nat) (f : Nat) (q : State) : Bool :=
  (K.nfa.accepts q).isSome && decide (K.nfa.leaveActs q = []) &&
  reps.all fun b => X.hit f b || (subs (relConds K.nfa q b)).all fun t => (K.nfa.delta q b (cvOf t)).isNone

def regTr (S : Machine) (K : EMach) (l : Nat) (X : Exits) (reps : List Nat) (tab : List RPair) (r : RPair) (b : Nat) (cv : Cond → Bool) : Bool :=
  match S.nfa.delta r.qs b cv, K.nfa.delta r.qe b cv with
  | none, none => r.qs.isEmpty || regBack S K l r
  | some (qs, as), some (qe, ae) =>
    match regActs S l r.a as ae with
    | none => false
    | some a =>
      regAcc S K l (S.nfa.accepts qs) (K.nfa.accepts qe) && !qs.isEmpty && !qe.isEmpty &&
      if S.nfa.isLast qs then
        regEnd l (S.ends.getD ((S.nfa.accepts qs).getD 0) .none) (K.ends.getD ((K.nfa.accepts qe).getD 0) .none) &&
        entOk a (S.ends.getD ((S.nfa.accepts qs).getD 0) .none) &&
        (K.nfa.isLast qe || ((X.pairs.any fun y => y.1 == b) && regLag K X reps b qe))
      else !K.nfa.isLast qe && tab.contains ⟨qs, qe, a, X.keep b⟩
  | _, _ => false

def regRow (S : Machine) (K : EMach) (l : Nat) (X : Exits) (reps : List Nat) (tab : List RPair) (r : RPair) : Bool :=
  (r.qs.isEmpty == r.qe.isEmpty) &&
  reps.all fun b => X.hit r.f b || (subs (bothConds S.nfa K.nfa r.qs r.qe b)).all fun t => regTr S K l X reps tab r b (cvOf t)

/-- The table relates the two machines. -/
def regOk (S : Machine) (K : EMach) (l : Nat) (X : Exits) (reps : List Nat) (tab : List RPair) : Bool :=
  tab.contains ⟨[], [], none, 256⟩ && tab.all (regRow S K l X reps tab)

/-- The parser `S` of language `l`, the machine `e` of a page, the table that relates them. -/
structure RegCert (S : Machine) (M : Multi) (e l : Nat) (X : Exits) where
  ms : List Nat
  cs : List (Nat × Nat)
  tab : List RPair
  ops : opsOk S M l = true
  scan : (M.mach e).scanner = true
  masksS : masksIn S.nfa ms = true
  masksK : masksIn (M.mach e).nfa ms = true
  sep : (X.marks.all fun x => ms.contains (Cls.chr x)) = true
  rep_ok : repOk ms cs = true
  ne : (X.pairs.all fun y => y.1 != 10 && decide (y.1 < 256)) = true
  crS : crOnly S.nfa = true
  crK : crOnly (M.mach e).nfa = true
  tab_ok : regOk S (M.mach e) l X (cs.map (·.1)) tab = true

theorem delta_cvOf' (m : Nfa) (q : State) (b : Nat) (R : List Cond) (hR : ∀ c ∈ relConds m q b, c ∈ R) (cv : Cond → Bool) :
    m.delta q b (cvOf (R.filter cv)) = m.delta q b cv := by
  have : (m.edges q).filter (fun e => e.mask.has b && e.conds.all (cvOf (R.filter cv)))
      = (m.edges q).filter (fun e => e.mask.has b && e.conds.all cv) := by
    apply List.filter_congr
    intro e he
    cases hb : e.mask.has b
    · rfl
    · simp only [Bool.true_and]
      rw [Bool.eq_iff_iff, List.all_eq_true, List.all_eq_true]
      have key : ∀ c ∈ e.conds, cvOf (R.filter cv) c = cv c := by
        intro c hc
        apply cvOf_filter
        apply hR
        unfold relConds
        rw [mem_foldr_addCond]
        left
        rw [List.mem_flatMap]
        exact ⟨e, by simp [he, hb], hc⟩
      constructor
      · intro h c hc; rw [← key c hc]; exact h c hc
      · intro h c hc; rw [key c hc]; exact h c hc
  unfold Nfa.delta Nfa.enabled
  rw [this]

theorem has_chr (x b : Nat) : Cls.has (Cls.chr x) b = decide (b = x) := by
  rw [has_testBit]
  unfold Cls.chr
  rw [Nat.testBit_shiftLeft]
  by_cases h : b ≥ x
  · cases h2 : (1 : Nat).testBit (b - x) with
    | true =>
      have := Nat.testBit_one_eq_true_iff_self_eq_zero.mp h2
      have : b = x := by omega
      simp [this]
    | false =>
      have : b ≠ x := by
        rintro rfl
        rw [Nat.sub_self] at h2
        exact absurd h2 (by decide)
      simp [this]
  · have : b ≠ x := by omega
    simp [h, this]

namespace RegCert
variable {S : Machine} {M : Multi} {e l : Nat} {X : Exits} (C : RegCert S M e l X)
include C

theorem rep_eq {x : Nat} (hx : Cls.chr x ∈ C.ms) {b : Nat} (hb : b < 256) : (repOf C.cs b == x) = (b == x) := by
  have := rep_mask C.rep_ok hb hx
  rw [has_chr, has_chr] at this
  rw [Bool.eq_iff_iff] at this ⊢
  simpa using this

theorem marks {b : Nat} (hb : b < 256) : ∀ x ∈ X.marks, (repOf C.cs b == x) = (b == x) := by
  intro x hx
  have := List.all_eq_true.mp C.sep x hx
  exact C.rep_eq (by simpa using this) hb

theorem rep_in {b : Nat} (hb : b < 256) : repOf C.cs b ∈ C.cs.map (·.1) := by
  obtain ⟨c, hc, h1, _⟩ := repOf_spec C.rep_ok hb
  exact List.mem_map.mpr ⟨c, hc, h1.symm⟩

/-- What the check says about every byte and every value of the conditions. -/
theorem row {r : RPair} (hr : r ∈ C.tab) : r.qs.isEmpty = r.qe.isEmpty ∧
    ∀ (b : Byte) (cv : Cond → Bool), X.hit r.f b.toNat = true ∨
      ∃ b' : Nat, (∀ x ∈ X.marks, (b' == x) = (b.toNat == x)) ∧ S.nfa.delta r.qs b' (cvOf ((bothConds S.nfa (M.mach e).nfa r.qs r.qe b').filter cv)) = S.nfa.delta r.qs b.toNat cv ∧
        (M.mach e).nfa.delta r.qe b' (cvOf ((bothConds S.nfa (M.mach e).nfa r.qs r.qe b').filter cv)) = (M.mach e).nfa.delta r.qe b.toNat cv ∧
        regTr S (M.mach e) l X (C.cs.map (·.1)) C.tab r b' (cvOf ((bothConds S.nfa (M.mach e).nfa r.qs r.qe b').filter cv)) = true := by
  have h := C.tab_ok
  unfold regOk at h
  rw [Bool.and_eq_true, List.all_eq_true] at h
  have h1 := h.2 r hr
  unfold regRow at h1
  rw [Bool.and_eq_true, beq_iff_eq, List.all_eq_true] at h1
  refine ⟨h1.1, fun b cv => ?_⟩
  have hb : b.toNat < 256 := b.toNat_lt
  have h2 := h1.2 _ (C.rep_in hb)
  rw [Bool.or_eq_true, Exits.hit_congr (C.marks hb), List.all_eq_true] at h2
  rcases h2 with h2 | h2
  · exact .inl h2
  · refine .inr ⟨repOf C.cs b.toNat, C.marks hb, ?_, ?_, h2 _ (filter_mem_subs cv _)⟩
    · rw [delta_cvOf' _ _ _ _ (fun c hc => by unfold bothConds; rw [mem_foldr_addCond]; exact .inl hc), delta_rep C.masksS C.rep_ok hb]
    · rw [delta_cvOf' _ _ _ _ (fun c hc => by unfold bothConds; rw [mem_foldr_addCond]; exact .inr hc), delta_rep C.masksK C.rep_ok hb]

theorem lag {f : Nat} {q : State} (h : regLag (M.mach e) X (C.cs.map (·.1)) f q = true) : (∃ j, (M.mach e).nfa.accepts q = some j) ∧
    (M.mach e).nfa.leaveActs q = [] ∧ ∀ (b : Byte) (cv : Cond → Bool), X.hit f b.toNat = false → (M.mach e).nfa.delta q b.toNat cv = none := by
  unfold regLag at h
  rw [Bool.and_eq_true, Bool.and_eq_true, decide_eq_true_eq, List.all_eq_true] at h
  obtain ⟨⟨h1, h2⟩, h3⟩ := h
  refine ⟨Option.isSome_iff_exists.mp h1, h2, fun b cv hne => ?_⟩
  have hb : b.toNat < 256 := b.toNat_lt
  have := h3 _ (C.rep_in hb)
  rw [Bool.or_eq_true, Exits.hit_congr (C.marks hb), hne, List.all_eq_true] at this
  rcases this with g | g
  · cases g
  · have := g _ (filter_mem_subs cv _)
    rw [delta_cvOf, delta_rep C.masksK C.rep_ok hb] at this
    simpa using this

end RegCert

/-! ### The simulation -/

theorem run_one {M : Multi} {B : List Byte} {c c1 : ECfg} (h : M.step B c = some c1) : M.run B 1 c = c1 := by
  show (match M.step B c with | none => c | some c' => M.run B 0 c') = c1
  rw [h]; rfl

section
variable {S : Machine} {M : Multi} {e l : Nat} {X : Exits} (C : RegCert S M e l X)
variable (A W R : List Byte) (st : List (Nat × State)) (b : EData)

/-- The parser of the language in the text `W`, and the machine of the page behind `A`. -/
structure RReg (c : Cfg) (c' : ECfg) : Prop where
  m : c'.m = e
  stack : c'.stack = st
  bad : c'.bad = false
  p : c'.p = c.p + A.length
  ts : c'.ts = c.ts + A.length ∨ c.q = []
  te : c.acc.isSome = true → c'.te = c.te + A.length ∧ 1 ≤ c.te
  te0 : c.q = [] → c'.te = c'.p
  acc : regAcc S (M.mach e) l c.acc c'.acc = true
  acc0 : c.q = [] → c.acc = none
  pos : c.q ≠ [] → 1 ≤ c.p
  pair : ∃ r ∈ C.tab, r.qs = c.q ∧ r.qe = c'.q ∧ GRel A.length b l r.a c.d c'.x ∧
    (r.f ≠ 256 → ∃ x : Byte, 1 ≤ c.p ∧ W[c.p - 1]? = some x ∧ x.toNat = r.f)

variable {A W R st b}

theorem tab_start : ⟨[], [], none, 256⟩ ∈ C.tab := by
  have h := C.tab_ok
  unfold regOk at h
  rw [Bool.and_eq_true] at h
  simpa using h.1

theorem finish_reg {B : List Byte} {c' : ECfg} (hm : c'.m = e) (hst : c'.stack = st) (hb : c'.bad = false) {a : Option Ent} {d : Data} {y : EData}
    (h : GRel A.length b l a d y) {ts te i j : Nat} (hte : 1 ≤ te)
    (he : regEnd l (S.ends.getD i .none) ((M.mach e).ends.getD j .none) = true) (ha : entOk a (S.ends.getD i .none) = true)
    {c1 : Cfg} (h1 : c1.q = []) (h2 : c1.p = te) (h3 : c1.acc = none) (h4 : c1.d = S.runEnd d ts te i) :
    RReg C A W st b c1 (M.finish B c' (ts + A.length) y (te + A.length) j) := by
  obtain ⟨g1, g2, g3, g4⟩ := runEnd_g (B := B) (M := M) C.ops (K := M.mach e) h (ts := ts) hte he ha
  unfold Multi.finish
  rw [show M.mach c'.m = M.mach e by rw [hm]]
  revert g1 g2 g3 g4
  generalize M.runEnd B (ts + A.length) { x := y, np := te + A.length, te := te + A.length } ((M.mach e).ends.getD j .none) = s
  intro g1 g2 g3 g4
  unfold ECfg.goOn
  rw [g4]
  refine ⟨hm, hst, hb, ?_, .inr h1, ?_, fun _ => g3.trans g2.symm, ?_, fun _ => h3, ?_, ⟨_, tab_start C, h1.symm, rfl, ?_, ?_⟩⟩
  · dsimp only; rw [g2, h2]
  · rw [h3]; intro g; cases g
  · dsimp only; rw [h3]; rfl
  · intro g; exact absurd h1 g
  · rw [h4]; exact g1
  · intro g; exact absurd rfl g

theorem Exits.Free.no_hit {X : Exits} {W : List Byte} (h : X.Free W) {p f : Nat} {x y : Byte} (hy : W[p + 1]? = some y)
    (hx : W[p]? = some x) (hf : x.toNat = f) : X.hit f y.toNat = false := by
  subst hf
  unfold Exits.hit
  have h1 := h.1 y (List.mem_of_getElem? hy)
  have h2 := h.2 p x y hx hy
  simp [h1, h2]

theorem step_reg (hA : Fresh A) (hW : W.getLast? = some 10)
    (hno : X.Free W) (hlt : ∀ y ∈ X.pairs, y.1 < 256)
    {c c1 : Cfg} {c' : ECfg} (h : RReg C A W st b c c') (hp : c.p < W.length) (hs : S.step W c = some c1) :
    ∃ n, RReg C A W st b c1 (M.run (A ++ (W ++ R)) n c') := by
  obtain ⟨r, hr, r1, r2, r3, r4⟩ := h.pair
  have hb0 : W[c.p]? = some W[c.p] := List.getElem?_eq_getElem hp
  generalize W[c.p] = b0 at hb0
  have hB : (A ++ (W ++ R))[c'.p]? = some b0 := by rw [h.p, getElem?_shift A W R (.inl hp), hb0]
  have hlast : ¬ c.p + 1 < W.length → b0 = 10 := by
    intro hl
    have : c.p = W.length - 1 := by omega
    rw [List.getLast?_eq_getElem?, ← this, hb0] at hW
    simpa using hW
  have hδ : (M.mach e).nfa.delta c'.q b0.toNat (condAt (A ++ (W ++ R)) c'.p c'.x.d) = (M.mach e).nfa.delta c'.q b0.toNat (condAt W c.p c.d) := by
    rw [h.p]
    by_cases hl : c.p + 1 < W.length
    · have : condAt (A ++ (W ++ R)) (c.p + A.length) c'.x.d = condAt W c.p c.d := by
        funext cc
        exact condAt_shift hA W R r3.dr (.inl (Nat.le_of_lt hp)) (fun _ => .inl hl)
      rw [this]
    · have hb : b0.toNat ≠ 13 := by rw [hlast hl]; decide
      exact delta_cr C.crK _ hb fun cc hcc => condAt_shift hA W R r3.dr (.inl (Nat.le_of_lt hp)) (fun g => absurd g hcc)
  obtain ⟨hqe, hrow⟩ := C.row hr
  rw [r1, r2] at hqe
  rcases hrow b0 (condAt W c.p c.d) with hit | ⟨b', hb', hS, hK, htr⟩
  · have : r.f ≠ 256 ∨ b0.toNat ∈ X.bytes := by
      unfold Exits.hit at hit
      rw [Bool.or_eq_true, List.contains_iff_mem, List.contains_iff_mem] at hit
      rcases hit with g | g
      · exact .inr g
      · have := hlt _ g
        dsimp only at this
        exact .inl (by omega)
    rcases this with g | g
    · obtain ⟨x, x1, x2, x3⟩ := r4 g
      have := hno.no_hit (p := c.p - 1) (y := b0) (by rw [show c.p - 1 + 1 = c.p by omega]; exact hb0) x2 x3
      rw [hit] at this; cases this
    · exact absurd g (hno.1 b0 (List.mem_of_getElem? hb0))
  · unfold regTr at htr
    rw [hS, hK, r1, r2, ← hδ] at htr
    unfold Machine.step at hs
    rw [hb0] at hs
    dsimp only at hs
    have hE : M.step (A ++ (W ++ R)) c' = (match (M.mach e).nfa.delta c'.q b0.toNat (condAt (A ++ (W ++ R)) c'.p c'.x.d) with
        | none => if c'.q.isEmpty then none else M.fallback (A ++ (W ++ R)) c'
        | some (q', as) =>
          let ts := if c'.q.isEmpty then c'.p else c'.ts
          let k? := (M.mach e).nfa.accepts q'
          let last := (M.mach e).nfa.isLast q'
          let te := if k?.isSome && !last then c'.p + 1 else c'.te
          let s := M.acts (A ++ (W ++ R)) ts { x := c'.x, np := c'.p + 1, te := te } as
          if s.jump.isSome then some (({ c' with ts := ts }).goOn (if last then [] else q') s none)
          else if last then some (M.finish (A ++ (W ++ R)) c' ts s.x s.np (k?.getD 0))
          else some (({ c' with ts := ts }).goOn q' s (if k?.isSome then k? else if c'.q.isEmpty then none else c'.acc))) := by
      unfold Multi.step
      rw [h.bad, h.m, hB]
      simp only [C.scan, Bool.true_and, Bool.not_true, Bool.or_false, Bool.false_eq_true, if_false, Option.bind_some, if_true]
      rfl
    revert htr hs hE
    generalize S.nfa.delta c.q b0.toNat (condAt W c.p c.d) = dS
    generalize (M.mach e).nfa.delta c'.q b0.toNat (condAt (A ++ (W ++ R)) c'.p c'.x.d) = dK
    intro hs htr hE
    cases dS with
    | none =>
      cases dK with
      | some y => cases htr
      | none =>
        dsimp only at htr hs hE
        cases hq : c.q.isEmpty with
        | true => rw [hq] at hs; cases hs
        | false =>
          rw [← hqe, hq] at hE
          rw [hq] at htr hs
          simp only [Bool.false_eq_true, if_false, Bool.false_or] at hE htr hs
          have hq' : c.q ≠ [] := by intro g; rw [g] at hq; cases hq
          have hpos := h.pos hq'
          have hts : c'.ts = c.ts + A.length := h.ts.resolve_right hq'
          unfold regBack at htr
          rw [r1, r2] at htr
          unfold Machine.fallback at hs
          unfold Multi.fallback at hE
          dsimp only at hE
          rw [h.m] at hE
          cases hk : S.nfa.accepts c.q with
          | some i =>
            cases hk' : (M.mach e).nfa.accepts c'.q with
            | none => rw [hk, hk'] at htr; cases htr
            | some j =>
              rw [hk, hk'] at htr
              rw [hk] at hs
              rw [hk'] at hE
              dsimp only at htr hs hE
              cases ha : regActs S l r.a (S.nfa.leaveActs c.q) ((M.mach e).nfa.leaveActs c'.q) with
              | none => rw [ha] at htr; cases htr
              | some a =>
                rw [ha] at htr
                dsimp only at htr
                rw [Bool.and_eq_true] at htr
                obtain ⟨g1, _⟩ := acts_g (B := A ++ (W ++ R)) (ts := c.ts) (te := c.te) (np := c.p + 1)
                  (t := { x := c'.x, np := c'.p + 1, te := c'.te }) C.ops ha r3 (by dsimp only; rw [h.p]; omega) (by omega) rfl
                refine ⟨1, ?_⟩
                rw [run_one hE, hts, h.p]
                rw [h.p] at g1
                simp only [Option.some.injEq] at hs
                exact finish_reg C h.m h.stack h.bad g1 hpos htr.1 htr.2 (by rw [← hs]; rfl) (by rw [← hs]; rfl) (by rw [← hs]; rfl) (by rw [← hs]; rfl)
          | none =>
            cases hk' : (M.mach e).nfa.accepts c'.q with
            | some j => rw [hk, hk'] at htr; cases htr
            | none =>
              rw [hk, hk'] at htr
              rw [hk] at hs
              rw [hk'] at hE
              dsimp only at htr hs hE
              have hacc := h.acc
              have hte := h.te
              cases hc : c.acc with
              | none => rw [hc] at hs; cases hs
              | some i =>
                rw [hc] at hs hacc hte
                cases hc' : c'.acc with
                | none => rw [hc'] at hacc; cases hacc
                | some j =>
                  rw [hc'] at hE hacc
                  dsimp only at hs hE
                  obtain ⟨t1, t2⟩ := hte rfl
                  refine ⟨1, ?_⟩
                  rw [run_one hE, hts, t1]
                  simp only [Option.some.injEq] at hs
                  exact finish_reg C h.m h.stack h.bad r3 t2 hacc (by unfold entOk; rw [htr]; rfl) (by rw [← hs]; rfl) (by rw [← hs]; rfl) (by rw [← hs]; rfl)
                    (by rw [← hs]; rfl)
    | some yS =>
      obtain ⟨qs, as⟩ := yS
      cases dK with
      | none => cases htr
      | some yK =>
        obtain ⟨qe, ae⟩ := yK
        dsimp only at htr hs hE
        cases ha : regActs S l r.a as ae with
        | none => rw [ha] at htr; cases htr
        | some a =>
          rw [ha] at htr
          dsimp only at htr
          rw [Bool.and_eq_true, Bool.and_eq_true, Bool.and_eq_true] at htr
          obtain ⟨⟨⟨hac, hns⟩, hne⟩, htr⟩ := htr
          rw [← hqe] at hE
          have hts : (if c.q.isEmpty = true then c'.p else c'.ts) = (if c.q.isEmpty = true then c.p else c.ts) + A.length := by
            split
            · exact h.p
            · rename_i g
              exact h.ts.resolve_right (by intro g'; rw [g'] at g; exact g rfl)
          rw [hts] at hE
          revert hs hE
          generalize (if c.q.isEmpty = true then c.p else c.ts) = ts
          intro hs hE
          obtain ⟨g1, g2, g3, g4, g5⟩ := acts_g (B := A ++ (W ++ R)) (ts := ts) (te := if (S.nfa.accepts qs).isSome = true then c.p + 1 else c.te) (np := c.p + 1)
            (t := { x := c'.x, np := c'.p + 1, te := if ((M.mach e).nfa.accepts qe).isSome && !(M.mach e).nfa.isLast qe then c'.p + 1 else c'.te })
            C.ops ha r3 (by dsimp only; rw [h.p]; omega) (by omega) rfl
          revert hs hE g1 g2 g3 g4 g5
          generalize S.acts ts (if (S.nfa.accepts qs).isSome = true then c.p + 1 else c.te) (c.d, c.p + 1) as = rS
          generalize M.acts (A ++ (W ++ R)) (ts + A.length)
            { x := c'.x, np := c'.p + 1, te := if ((M.mach e).nfa.accepts qe).isSome && !(M.mach e).nfa.isLast qe then c'.p + 1 else c'.te } ae = rE
          intro hs hE g1 g2 g3 g4 g5
          rw [g5] at hE
          dsimp only at g3 g4
          rw [h.p] at g3 g4
          rw [show c.p + A.length + 1 = c.p + 1 + A.length by omega] at g3 g4
          simp only [Option.isSome_none, Bool.false_eq_true, if_false] at hE
          cases hl : S.nfa.isLast qs with
          | true =>
            rw [hl] at htr hs
            simp only [if_true, Bool.and_eq_true, Bool.or_eq_true] at htr hs
            obtain ⟨⟨ht1, ht2⟩, ht3⟩ := htr
            simp only [Option.some.injEq] at hs
            cases hl' : (M.mach e).nfa.isLast qe with
            | true =>
              rw [hl'] at hE
              simp only [if_true] at hE
              refine ⟨1, ?_⟩
              rw [run_one hE, g3]
              exact finish_reg C h.m h.stack h.bad g1 (by omega) ht1 ht2 (by rw [← hs]; rfl) (by rw [← hs]; exact g2) (by rw [← hs]; rfl)
                (by rw [← hs]; unfold Machine.finish; dsimp only; rw [g2])
            | false =>
              rw [hl'] at ht3 hE g4
              simp only [Bool.false_eq_true, false_or, if_false] at ht3 hE
              obtain ⟨lg0, lg⟩ := ht3
              obtain ⟨⟨j, l1⟩, l2, l3⟩ := C.lag lg
              have lg1 : ∃ y ∈ X.pairs, y.1 = b' := by
                rw [List.any_eq_true] at lg0
                obtain ⟨y, hy, g⟩ := lg0
                exact ⟨y, hy, by simpa using g⟩
              obtain ⟨y1, hy1, lg1⟩ := lg1
              have lg0 : b0.toNat = b' := by
                have := hb' y1.1 (by simp only [Exits.marks, List.mem_append, List.mem_map]; exact .inl (.inr ⟨_, hy1, rfl⟩))
                rw [lg1, BEq.rfl, eq_comm, beq_iff_eq] at this
                exact this
              rw [l1] at g4 hE
              simp only [Option.isSome_some, Bool.not_false, Bool.and_self, if_true] at g4 hE
              -- the next byte
              have hp1 : c.p + 1 < W.length := by
                rcases Nat.lt_or_ge (c.p + 1) W.length with g | g
                · exact g
                · have := hlast (by omega)
                  rw [this] at lg0
                  have hne := List.all_eq_true.mp C.ne y1 hy1
                  simp only [Bool.and_eq_true, bne_iff_ne, ne_eq] at hne
                  exact absurd (lg1.trans lg0.symm) hne.1
              have hb1 : W[c.p + 1]? = some W[c.p + 1] := List.getElem?_eq_getElem hp1
              generalize W[c.p + 1] = b1 at hb1
              have hne1 := hno.no_hit hb1 hb0 lg0
              have hB1 : (A ++ (W ++ R))[c.p + 1 + A.length]? = some b1 := by rw [getElem?_shift A W R (.inl hp1), hb1]
              have hE2 : M.step (A ++ (W ++ R)) (({ c' with ts := ts + A.length }).goOn qe rE (some j)) =
                  some (M.finish (A ++ (W ++ R)) (({ c' with ts := ts + A.length }).goOn qe rE (some j)) (ts + A.length) rE.x (c.p + 1 + A.length) j) := by
                unfold Multi.step ECfg.goOn
                rw [g5]
                dsimp only
                rw [h.bad, h.m, g3, hB1]
                simp only [Option.bind_some, l3 b1 _ hne1, Bool.false_eq_true, if_false, C.scan, Bool.not_true, Bool.or_false]
                rw [if_neg (by simpa using hne)]
                unfold Multi.fallback
                dsimp only
                rw [l1, l2]
                rfl
              refine ⟨2, ?_⟩
              rw [show 2 = 1 + 1 from rfl, Multi.run_add, run_one hE, run_one hE2]
              rw [l1] at ht1
              refine finish_reg C ?_ ?_ ?_ g1 (by omega) ht1 ht2 (by rw [← hs]; rfl) (by rw [← hs]; exact g2) (by rw [← hs]; rfl)
                (by rw [← hs]; unfold Machine.finish; dsimp only; rw [g2])
              · unfold ECfg.goOn; rw [g5]; exact h.m
              · unfold ECfg.goOn; rw [g5]; exact h.stack
              · unfold ECfg.goOn; rw [g5]; exact h.bad
          | false =>
            rw [hl] at htr hs
            simp only [Bool.false_eq_true, if_false, Bool.and_eq_true, Bool.not_eq_true'] at htr hs
            obtain ⟨hl', ht⟩ := htr
            rw [hl'] at hE g4
            simp only [Bool.false_eq_true, if_false, Bool.not_false, Bool.and_true] at hE g4
            simp only [Option.some.injEq] at hs
            refine ⟨1, ?_⟩
            rw [run_one hE]
            unfold ECfg.goOn
            rw [g5]
            subst hs
            have hsome : ((M.mach e).nfa.accepts qe).isSome = (S.nfa.accepts qs).isSome := by
              revert hac
              cases S.nfa.accepts qs <;> cases (M.mach e).nfa.accepts qe <;> simp [regAcc]
            have hqs : qs ≠ [] := by intro g; rw [g] at hns; cases hns
            refine ⟨h.m, h.stack, h.bad, ?_, .inl rfl, ?_, fun g => absurd g hqs, ?_, fun g => absurd g hqs, fun _ => by dsimp only; omega,
              ⟨_, by simpa using ht, rfl, rfl, g1, ?_⟩⟩
            · dsimp only; rw [g3, g2]
            · dsimp only
              rw [g4, hsome]
              cases hk : (S.nfa.accepts qs).isSome with
              | true => intro _; simp
              | false =>
                simp only [Bool.false_eq_true, if_false]
                cases hq : c.q.isEmpty with
                | true => intro g; cases g
                | false => simp only [Bool.false_eq_true, if_false]; exact h.te
            · dsimp only
              rw [hsome]
              cases hk : (S.nfa.accepts qs).isSome with
              | true => simpa using hac
              | false =>
                simp only [Bool.false_eq_true, if_false]
                cases hq : c.q.isEmpty with
                | true => rfl
                | false => simp only [Bool.false_eq_true, if_false]; exact h.acc
            · intro g
              dsimp only at g ⊢
              rw [Exits.keep_congr hb'] at g ⊢
              refine ⟨b0, by omega, by rw [g2, Nat.add_sub_cancel]; exact hb0, ?_⟩
              unfold Exits.keep at g ⊢
              split at g
              · rename_i g'; rw [if_pos g']
              · exact absurd rfl g

end

end Ohcount.Ragel
