import Verif.EmbedSafe

/-!
A parser with embedded languages reads a text in the same way wherever it stands in a buffer, if it starts between two lines.
The runs on the text and on the buffer are related by `PRel`: positions differ by an offset `k`, and the callbacks made before are in `b`.
-/

namespace Ohcount.Ragel

/-- The callback, `k` bytes further on. -/
def Rep.sh (k : Nat) (r : Rep) : Rep := ⟨r.kind, r.s + k, r.e + k⟩

/-- The variables of two runs, but for `entity`: the second one is `k` bytes further on and has made the callbacks of `b` before. -/
structure VRel (k : Nat) (b d e : Data) : Prop where
  ls : e.ls = d.ls.map (· + k)
  lcc : e.lcc = d.lcc
  wlc : e.wlc = d.wlc
  inq : e.inq = d.inq
  que : d.inq = true → e.lastLs = d.lastLs.map (· + k) ∧ e.lastLcc = d.lastLcc ∧ e.lastWlc = d.lastWlc ∧ e.queue = d.queue.map (Rep.sh k)
  nest : e.nest = d.nest
  ind : e.ind = d.ind
  prior : e.prior = d.prior
  out : e.out = b.out ++ d.out.map (Rep.sh k)
  ents : e.ents = b.ents ++ d.ents.map fun x => (x.1, x.2.1 + k, x.2.2 + k)
  ub : e.ub = (b.ub || d.ub)

namespace VRel
variable {k : Nat} {b d e : Data}

theorem setEnt (h : VRel k b d e) (x y : Ent) : VRel k b { d with ent := x } { e with ent := y } :=
  ⟨h.ls, h.lcc, h.wlc, h.inq, h.que, h.nest, h.ind, h.prior, h.out, h.ents, h.ub⟩

theorem deq (h : VRel k b d e) : VRel k b d.deq e.deq := by
  unfold Data.deq
  rw [h.inq]
  cases hi : d.inq with
  | false => simpa [hi] using h
  | true =>
    obtain ⟨h1, h2, h3, h4⟩ := h.que hi
    exact ⟨h1, h2, h3, rfl, fun g => by simp [Data.dequeue] at g, h.nest, h.ind, h.prior, h.out, h.ents, h.ub⟩

theorem deq_inq' (d : Data) : d.deq.inq = false := Ohcount.Ragel.deq_inq d

theorem ls_none (h : VRel k b d e) : e.ls.isNone = d.ls.isNone := by rw [h.ls]; cases d.ls <;> rfl

theorem actCode (h : VRel k b d e) (ts : Nat) : VRel k b (d.actCode ts) (e.actCode (ts + k)) := by
  refine ⟨?_, rfl, h.wlc, h.inq, h.que, h.nest, h.ind, h.prior, h.out, h.ents, h.ub⟩
  unfold Data.actCode
  dsimp only
  rw [h.lcc, h.ls_none]
  split
  · rfl
  · exact h.ls

theorem actComment (h : VRel k b d e) (ts : Nat) : VRel k b (d.actComment ts) (e.actComment (ts + k)) := by
  unfold Data.actComment
  rw [h.lcc]
  split
  · exact h
  · refine ⟨?_, rfl, rfl, h.inq, h.que, h.nest, h.ind, h.prior, h.out, h.ents, h.ub⟩
    dsimp only
    rw [h.ls_none]
    split
    · rfl
    · exact h.ls

theorem mLs (h : VRel k b d e) (ts : Nat) : VRel k b (d.mLs ts) (e.mLs (ts + k)) := by
  have g := h.deq
  refine ⟨?_, g.lcc, g.wlc, g.inq, g.que, g.nest, g.ind, g.prior, g.out, g.ents, g.ub⟩
  unfold Data.mLs
  dsimp only
  rw [g.ls_none]
  split
  · rfl
  · exact g.ls

theorem mCode (h : VRel k b d e) (ts : Nat) : VRel k b (d.mCode ts) (e.mCode (ts + k)) := h.deq.actCode ts
theorem mComment (h : VRel k b d e) (ts : Nat) : VRel k b (d.mComment ts) (e.mComment (ts + k)) := h.deq.actComment ts

theorem emit (h : VRel k b d e) (q : Bool) (hq : q = true → d.inq = true) (x : Kind) (s : Option Nat) (p : Nat) :
    VRel k b (d.emit q x s p) (e.emit q x (s.map (· + k)) (p + k)) := by
  unfold Data.emit
  cases s with
  | none => exact ⟨h.ls, h.lcc, h.wlc, h.inq, h.que, h.nest, h.ind, h.prior, h.out, h.ents, by simp⟩
  | some s =>
    cases q with
    | true =>
      refine ⟨h.ls, h.lcc, h.wlc, h.inq, fun g => ?_, h.nest, h.ind, h.prior, h.out, h.ents, h.ub⟩
      obtain ⟨h1, h2, h3, h4⟩ := h.que (hq rfl)
      refine ⟨h1, h2, h3, ?_⟩
      simp only [Option.map_some, if_true]
      rw [h4, List.map_append]
      rfl
    | false =>
      refine ⟨h.ls, h.lcc, h.wlc, h.inq, h.que, h.nest, h.ind, h.prior, ?_, h.ents, h.ub⟩
      simp only [Option.map_some, Bool.false_eq_true, if_false]
      rw [h.out, List.map_append, List.append_assoc]
      rfl

theorem after (h : VRel k b d e) (p : Nat) : Data.after (p + k) e.ls = Data.after p d.ls := by
  rw [h.ls]
  unfold Data.after
  cases d.ls with
  | none => rfl
  | some x => simp

theorem kind (h : VRel k b d e) : e.kind = d.kind := by unfold Data.kind; rw [h.lcc, h.wlc]

theorem reset (h : VRel k b d e) (l : Option Nat) :
    VRel k b { d with wlc := false, lcc := false, ls := l } { e with wlc := false, lcc := false, ls := l.map (· + k) } :=
  ⟨rfl, rfl, rfl, h.inq, h.que, h.nest, h.ind, h.prior, h.out, h.ents, h.ub⟩

theorem stdInternalNewline (h : VRel k b d e) (p : Nat) : VRel k b (d.stdInternalNewline p) (e.stdInternalNewline (p + k)) := by
  unfold Data.stdInternalNewline
  dsimp only
  rw [h.after, h.kind, h.inq, h.ls]
  split
  · exact (h.emit d.inq id d.kind d.ls p).reset (some p)
  · exact h.reset (some p)

theorem stdNewline (h : VRel k b d e) (ts te : Nat) : VRel k b (d.stdNewline ts te) (e.stdNewline (ts + k) (te + k)) := by
  have g := h.deq
  unfold Data.stdNewline
  dsimp only
  rw [g.after, g.lcc, g.wlc, g.ls]
  split
  · split
    · exact (g.emit false (fun h => nomatch h) .lcode _ te).reset none
    · split
      · exact (g.emit false (fun h => nomatch h) .lcomment _ te).reset none
      · exact (g.emit false (fun h => nomatch h) .lblank (some ts) te).reset none
  · exact g.reset none

theorem processLastLine (h : VRel k b d e) (pe : Nat) : VRel k b (d.processLastLine pe) (e.processLastLine (pe + k)) := by
  unfold Data.processLastLine
  rw [h.lcc, h.wlc, h.ls]
  split
  · split
    · exact h.emit false (fun h => nomatch h) .lcode _ pe
    · exact h.emit false (fun h => nomatch h) .lcomment _ pe
  · exact h

theorem actEnqueue (h : VRel k b d e) : VRel k b d.actEnqueue e.actEnqueue :=
  ⟨h.ls, h.lcc, h.wlc, rfl, fun _ => ⟨h.ls, h.lcc, h.wlc, rfl⟩, h.nest, h.ind, h.prior, h.out, h.ents, h.ub⟩

theorem actCommit (h : VRel k b d e) : VRel k b d.actCommit e.actCommit := by
  unfold Data.actCommit
  rw [h.inq]
  split
  · rename_i hi
    obtain ⟨_, _, _, h4⟩ := h.que hi
    refine ⟨h.ls, h.lcc, h.wlc, rfl, fun g => by simp at g, h.nest, h.ind, h.prior, ?_, h.ents, h.ub⟩
    dsimp only
    rw [h.out, h4, List.map_append, List.append_assoc]
  · exact h

theorem outLen (h : VRel k b d e) : e.out.length = b.out.length + d.out.length := by rw [h.out]; simp

end VRel

/-! ### With languages -/

/-- The variables of two runs; `es`: `entity` is the same. -/
structure XRel (k : Nat) (b : EData) (es : Bool) (x y : EData) : Prop where
  d : VRel k b.d x.d y.d
  ent : es = true → y.d.ent = x.d.ent
  langs : y.langs = b.langs ++ x.langs
  qlangs : x.d.inq = true → y.qlangs = x.qlangs
  elangs : y.elangs = b.elangs ++ x.elangs
  seen : y.seen = x.seen

namespace XRel
variable {k : Nat} {b x y : EData} {es : Bool}

/-- A callback changes the variables to `d'` and `e'`. -/
theorem upd (h : XRel k b es x y) (l : Nat) {d' e' : Data} (hd : VRel k b.d d' e') (hx : Ext x.d d')
    (ent : es = true → e'.ent = d'.ent) : XRel k b es (x.upd l d') (y.upd l e') := by
  refine ⟨hd, ent, ?_, ?_, h.elangs, h.seen⟩
  · unfold EData.upd
    dsimp only
    rw [h.langs, List.append_assoc, show e'.out.length - y.d.out.length = d'.out.length - x.d.out.length by rw [hd.outLen, h.d.outLen]; omega]
  · intro hi
    unfold EData.upd at hi ⊢
    dsimp only at hi ⊢
    have h0 := (hx.que hi).1
    rw [h.qlangs h0]
    have h1 := (h.d.que h0).2.2.2
    have h2 := (hd.que hi).2.2.2
    rw [h1, h2]
    simp

theorem embLang (h : XRel k b es x y) (l : Nat) : y.embLang l = x.embLang l := by unfold EData.embLang; rw [h.seen]

theorem unsee (h : XRel k b es x y) : XRel k b es { x with seen := none } { y with seen := none } :=
  ⟨h.d, h.ent, h.langs, h.qlangs, h.elangs, rfl⟩

theorem weaken (h : XRel k b es x y) {es' : Bool} (hs : es' = true → es = true) : XRel k b es' x y :=
  ⟨h.d, fun g => h.ent (hs g), h.langs, h.qlangs, h.elangs, h.seen⟩

end XRel

theorem mLs_ent (d : Data) (ts : Nat) : (d.mLs ts).ent = d.ent := by unfold Data.mLs Data.deq Data.dequeue; split <;> rfl
theorem mCode_ent (d : Data) (ts : Nat) : (d.mCode ts).ent = d.ent := by unfold Data.mCode Data.actCode Data.deq Data.dequeue; split <;> rfl
theorem mComment_ent (d : Data) (ts : Nat) : (d.mComment ts).ent = d.ent := by
  unfold Data.mComment Data.actComment Data.deq Data.dequeue; split <;> split <;> rfl
theorem emit_entity (d : Data) (q : Bool) (k : Kind) (s : Option Nat) (e : Nat) : (d.emit q k s e).ent = d.ent := by
  unfold Data.emit; split
  · rfl
  · split <;> rfl
theorem stdInternalNewline_ent (d : Data) (p : Nat) : (d.stdInternalNewline p).ent = d.ent := by
  unfold Data.stdInternalNewline; dsimp only; split
  · exact emit_entity ..
  · rfl

/-- What actions change, in two runs. -/
structure SRel (k : Nat) (b : EData) (es : Bool) (s t : ES) : Prop where
  x : XRel k b es s.x t.x
  np : t.np = s.np + k
  pos : 1 ≤ s.np
  te : t.te = s.te + k
  jump : t.jump = s.jump

/-- If a callback at `s` looks for the end of the line, it finds the same in both buffers. -/
def BlankCb (M : Multi) (buf buf' : List Byte) (k : Nat) (s : ES) (l : Nat) : Prop :=
  M.op l s.x.d.ent = .checkBlank → blankEntry buf' (s.np - 1 + k) = (blankEntry buf (s.np - 1)).map (· + k)

theorem callback_rel {M : Multi} {buf buf' : List Byte} {k : Nat} {b : EData} {s t : ES} (h : SRel k b true s t) {l ts : Nat}
    (hb : BlankCb M buf buf' k s l) : SRel k b true (M.callback buf l ts s) (M.callback buf' l (ts + k) t) := by
  have hp : t.np - 1 = s.np - 1 + k := by have := h.pos; have := h.np; omega
  have he := h.x.ent rfl
  unfold Multi.callback
  dsimp only
  unfold BlankCb at hb
  rw [he]
  cases ho : M.op l s.x.d.ent with
  | ls => exact ⟨h.x.upd l (h.x.d.mLs ts) (Ext.mLs _ _) (fun _ => by rw [mLs_ent, mLs_ent, he]), h.np, h.pos, h.te, h.jump⟩
  | code => exact ⟨h.x.upd l (h.x.d.mCode ts) (Ext.mCode _ _) (fun _ => by rw [mCode_ent, mCode_ent, he]), h.np, h.pos, h.te, h.jump⟩
  | comment => exact ⟨h.x.upd l (h.x.d.mComment ts) (Ext.mComment _ _) (fun _ => by rw [mComment_ent, mComment_ent, he]), h.np, h.pos, h.te, h.jump⟩
  | internalNewline =>
    dsimp only
    rw [hp]
    exact ⟨h.x.upd l (h.x.d.stdInternalNewline _) (Ext.stdInternalNewline _ _)
      (fun _ => by rw [stdInternalNewline_ent, stdInternalNewline_ent, he]), h.np, h.pos, h.te, h.jump⟩
  | newline =>
    dsimp only
    rw [h.te]
    exact ⟨h.x.upd l (h.x.d.stdNewline _ _) (Ext.stdNewline _ _ _) (fun _ => by rw [stdNewline_ent, stdNewline_ent, he]), h.np, h.pos, rfl, h.jump⟩
  | embInternalNewline =>
    dsimp only
    rw [hp, h.x.embLang]
    exact ⟨(h.x.upd _ (h.x.d.stdInternalNewline _) (Ext.stdInternalNewline _ _)
      (fun _ => by rw [stdInternalNewline_ent, stdInternalNewline_ent, he])).unsee, h.np, h.pos, h.te, h.jump⟩
  | embNewline =>
    dsimp only
    rw [h.te, h.x.embLang]
    exact ⟨(h.x.upd _ (h.x.d.stdNewline _ _) (Ext.stdNewline _ _ _) (fun _ => by rw [stdNewline_ent, stdNewline_ent, he])).unsee, h.np, h.pos, rfl, h.jump⟩
  | checkBlank =>
    dsimp only
    rw [hp, hb ho]
    cases hB : blankEntry buf (s.np - 1) with
    | none => exact h
    | some p =>
      dsimp only [Option.map_some]
      rw [show p + k + 1 = p + 1 + k by omega]
      exact ⟨h.x.upd l (h.x.d.stdNewline _ _) (Ext.stdNewline _ _ _) (fun _ => by rw [stdNewline_ent, stdNewline_ent, he]), rfl, by dsimp only; omega, rfl, h.jump⟩
  | nop => exact h

/-- The callbacks among the actions find the same in both buffers. -/
def BlankActs (M : Multi) (buf buf' : List Byte) (k ts : Nat) : ES → List Act → Prop
  | _, [] => True
  | s, a :: r => (a = .cb → BlankCb M buf buf' k s 0) ∧ (∀ l, a = .emb (.cb l) → BlankCb M buf buf' k s l) ∧
    BlankActs M buf buf' k ts (M.act buf ts s a) r

/-- Checks actions: a callback comes only after `entity` has been set (`es`), jumps lead to the machines in `use`. -/
def entActs (use : List Nat) : Bool → List Act → Option (Bool × Option Jump)
  | a, [] => some (a, none)
  | _, .setEnt _ :: r => entActs use true r
  | a, .cb :: r => if a then entActs use a r else none
  | a, .emb (.cb _) :: r => if a then entActs use a r else none
  | _, .fhold _ :: _ => none
  | a, .emb (.sawCall _ m) :: _ => if use.contains m then some (a, some (.call m)) else none
  | a, .emb .back :: _ => some (a, some .ret)
  | a, .emb .ret :: _ => some (a, some .ret)
  | a, .emb (.goto m) :: _ => if use.contains m then some (a, some (.goto m)) else none
  | _, .emb .eofCommit :: _ => none
  | a, .code :: r => entActs use a r
  | a, .comment :: r => entActs use a r
  | a, .enqueue :: r => entActs use a r
  | a, .commit :: r => entActs use a r
  | a, .nestRes :: r => entActs use a r
  | a, .nestInc :: r => entActs use a r
  | a, .nestDec :: r => entActs use a r
  | a, .emb .outry :: r => entActs use a r
  | a, .emb (.saw _) :: r => entActs use a r
  | a, .emb .indInc :: r => entActs use a r
  | a, .emb .indRes :: r => entActs use a r
  | a, .emb .indSet :: r => entActs use a r

theorem XRel.setD {k : Nat} {b x y : EData} {es : Bool} (h : XRel k b es x y) {d' e' : Data} (hd : VRel k b.d d' e')
    (hi : d'.inq = x.d.inq) (ent : es = true → e'.ent = d'.ent) : XRel k b es { x with d := d' } { y with d := e' } :=
  ⟨hd, ent, h.langs, fun g => h.qlangs (by rw [← hi]; exact g), h.elangs, h.seen⟩

theorem XRel.actEnqueue {k : Nat} {b x y : EData} {es : Bool} (h : XRel k b es x y) : XRel k b es x.actEnqueue y.actEnqueue :=
  ⟨h.d.actEnqueue, h.ent, h.langs, fun _ => rfl, h.elangs, h.seen⟩

theorem XRel.actCommit {k : Nat} {b x y : EData} {es : Bool} (h : XRel k b es x y) : XRel k b es x.actCommit y.actCommit := by
  unfold EData.actCommit
  rw [h.d.inq]
  split
  · rename_i hi
    refine ⟨h.d.actCommit, fun g => by rw [actCommit_ent, actCommit_ent]; exact h.ent g, ?_, fun _ => rfl, h.elangs, h.seen⟩
    dsimp only
    rw [h.langs, h.qlangs hi, List.append_assoc]
  · exact h

theorem XRel.saw {k : Nat} {b x y : EData} {es : Bool} (h : XRel k b es x y) (l : Nat) : XRel k b es (x.saw l) (y.saw l) :=
  ⟨⟨h.d.ls, rfl, rfl, h.d.inq, h.d.que, h.d.nest, h.d.ind, h.d.prior, h.d.out, h.d.ents, h.d.ub⟩, h.ent, h.langs, h.qlangs, h.elangs, rfl⟩

theorem XRel.outry {k : Nat} {b x y : EData} {es : Bool} (h : XRel k b es x y) : XRel k b es x.outry y.outry := by
  unfold EData.outry
  rw [h.d.lcc, h.d.wlc]
  split
  · exact h.unsee
  · exact h

theorem SRel.setX {k : Nat} {b : EData} {es es' : Bool} {s t : ES} (h : SRel k b es s t) {x y : EData} (g : XRel k b es' x y) :
    SRel k b es' { s with x := x } { t with x := y } := ⟨g, h.np, h.pos, h.te, h.jump⟩

theorem callback_jump (M : Multi) (buf : List Byte) (l ts : Nat) (s : ES) : (M.callback buf l ts s).jump = s.jump := by
  unfold Multi.callback
  dsimp only
  split <;> try rfl
  split <;> rfl

/-- The actions of a transition. -/
theorem acts_prel {M : Multi} {buf buf' : List Byte} {k ts : Nat} {b : EData} {use : List Nat} :
    ∀ {as : List Act} {es es' : Bool} {j : Option Jump} {s t : ES}, entActs use es as = some (es', j) → SRel k b es s t → s.jump = none →
      BlankActs M buf buf' k ts s as →
      SRel k b es' (M.acts buf ts s as) (M.acts buf' (ts + k) t as) ∧ (M.acts buf ts s as).jump = j ∧
        ∀ m, j = some (.call m) ∨ j = some (.goto m) → m ∈ use
  | [], es, es', j, s, t, he, h, hj, _ => by
    simp only [entActs, Option.some.injEq, Prod.mk.injEq] at he
    obtain ⟨rfl, rfl⟩ := he
    exact ⟨h, hj, by simp⟩
  | a :: r, es, es', j, s, t, he, h, hj, hB => by
    have hj' : t.jump = none := by rw [h.jump, hj]
    have key : ∀ {es2 : Bool}, entActs use es2 r = some (es', j) → SRel k b es2 (M.act buf ts s a) (M.act buf' (ts + k) t a) →
        (M.act buf ts s a).jump = none →
        SRel k b es' (M.acts buf ts s (a :: r)) (M.acts buf' (ts + k) t (a :: r)) ∧ (M.acts buf ts s (a :: r)).jump = j ∧
          ∀ m, j = some (.call m) ∨ j = some (.goto m) → m ∈ use := by
      intro es2 e2 h2 j2
      have j3 : (M.act buf' (ts + k) t a).jump = none := by rw [h2.jump, j2]
      unfold Multi.acts
      simp only [j2, j3, Option.isSome_none, Bool.false_eq_true, if_false]
      exact acts_prel e2 h2 j2 hB.2.2
    have stop : ∀ {x : Jump}, SRel k b es (M.act buf ts s a) (M.act buf' (ts + k) t a) → (M.act buf ts s a).jump = some x →
        some (es, some x) = some (es', j) → (∀ m, x = .call m ∨ x = .goto m → m ∈ use) →
        SRel k b es' (M.acts buf ts s (a :: r)) (M.acts buf' (ts + k) t (a :: r)) ∧ (M.acts buf ts s (a :: r)).jump = j ∧
          ∀ m, j = some (.call m) ∨ j = some (.goto m) → m ∈ use := by
      intro x h2 j2 e2 hm
      simp only [Option.some.injEq, Prod.mk.injEq] at e2
      obtain ⟨rfl, rfl⟩ := e2
      have j3 : (M.act buf' (ts + k) t a).jump = some x := by rw [h2.jump, j2]
      unfold Multi.acts
      simp only [j2, j3, Option.isSome_some, if_true]
      exact ⟨h2, trivial, fun m g => hm m (by simpa using g)⟩
    cases a with
    | setEnt e =>
      exact key (es2 := true) he (h.setX ⟨h.x.d.setEnt e e, fun _ => rfl, h.x.langs, h.x.qlangs, h.x.elangs, h.x.seen⟩) hj
    | code => exact key he (h.setX (h.x.setD (h.x.d.actCode ts) rfl h.x.ent)) hj
    | comment =>
      refine key he (h.setX (h.x.setD (h.x.d.actComment ts) ?_ ?_)) hj
      · unfold Data.actComment; split <;> rfl
      · intro g; rw [actComment_ent, actComment_ent]; exact h.x.ent g
    | enqueue => exact key he (h.setX h.x.actEnqueue) hj
    | commit => exact key he (h.setX h.x.actCommit) hj
    | cb =>
      simp only [entActs] at he
      split at he
      · rename_i hs
        subst hs
        exact key he (callback_rel h (hB.1 rfl)) (by show (M.callback _ _ _ _).jump = none; rw [callback_jump]; exact hj)
      · cases he
    | nestRes => exact key he (h.setX (h.x.setD ⟨h.x.d.ls, h.x.d.lcc, h.x.d.wlc, h.x.d.inq, h.x.d.que, rfl, h.x.d.ind, h.x.d.prior, h.x.d.out, h.x.d.ents, h.x.d.ub⟩ rfl h.x.ent)) hj
    | nestInc => exact key he (h.setX (h.x.setD ⟨h.x.d.ls, h.x.d.lcc, h.x.d.wlc, h.x.d.inq, h.x.d.que, by dsimp only; rw [h.x.d.nest], h.x.d.ind, h.x.d.prior, h.x.d.out, h.x.d.ents, h.x.d.ub⟩ rfl h.x.ent)) hj
    | nestDec => exact key he (h.setX (h.x.setD ⟨h.x.d.ls, h.x.d.lcc, h.x.d.wlc, h.x.d.inq, h.x.d.que, by dsimp only; rw [h.x.d.nest], h.x.d.ind, h.x.d.prior, h.x.d.out, h.x.d.ents, h.x.d.ub⟩ rfl h.x.ent)) hj
    | fhold i => simp [entActs] at he
    | emb e =>
      cases e with
      | cb l =>
        simp only [entActs] at he
        split at he
        · rename_i hs
          subst hs
          exact key he (callback_rel h (hB.2.1 l rfl)) (by show (M.callback _ _ _ _).jump = none; rw [callback_jump]; exact hj)
        · cases he
      | outry => exact key he (h.setX h.x.outry) hj
      | saw l => exact key he (h.setX (h.x.saw l)) hj
      | sawCall l m =>
        simp only [entActs] at he
        split at he
        · rename_i hu
          exact stop (x := .call m) ⟨h.x.saw l, h.np, h.pos, h.te, rfl⟩ rfl he (fun m' g => by
            rcases g with g | g
            · cases g; simpa using hu
            · cases g)
        · cases he
      | back => exact stop (x := .ret) ⟨h.x, by show ts + k + 1 = ts + 1 + k; omega, by show 1 ≤ ts + 1; omega, h.te, rfl⟩ rfl he (by simp)
      | ret => exact stop (x := .ret) ⟨h.x, h.np, h.pos, h.te, rfl⟩ rfl he (by simp)
      | goto m =>
        simp only [entActs] at he
        split at he
        · rename_i hu
          exact stop (x := .goto m) ⟨h.x, h.np, h.pos, h.te, rfl⟩ rfl he (fun m' g => by
            rcases g with g | g
            · cases g
            · cases g; simpa using hu)
        · cases he
      | indInc => exact key he (h.setX (h.x.setD ⟨h.x.d.ls, h.x.d.lcc, h.x.d.wlc, h.x.d.inq, h.x.d.que, h.x.d.nest, by dsimp only; rw [h.x.d.ind], h.x.d.prior, h.x.d.out, h.x.d.ents, h.x.d.ub⟩ rfl h.x.ent)) hj
      | indRes => exact key he (h.setX (h.x.setD ⟨h.x.d.ls, h.x.d.lcc, h.x.d.wlc, h.x.d.inq, h.x.d.que, h.x.d.nest, rfl, h.x.d.prior, h.x.d.out, h.x.d.ents, h.x.d.ub⟩ rfl h.x.ent)) hj
      | indSet => exact key he (h.setX (h.x.setD ⟨h.x.d.ls, h.x.d.lcc, h.x.d.wlc, h.x.d.inq, h.x.d.que, h.x.d.nest, h.x.d.ind, h.x.d.ind, h.x.d.out, h.x.d.ents, h.x.d.ub⟩ rfl h.x.ent)) hj
      | eofCommit => simp [entActs] at he

/-! ### The static check -/

/-- An end action is allowed if `entity` is known to be the same (`es`) or not needed. -/
def entEnd (use : List Nat) (es : Bool) : EEnd → Bool
  | .none => true
  | .cb _ | .ecb _ => es
  | .call m | .goto m => use.contains m

def entBack (use : List Nat) (ends : List EEnd) (acc : Option Nat) (l : List Act) (a : Bool) : Bool :=
  match acc with
  | some k => match entActs use a l with
    | some (a', none) => entEnd use a' (ends.getD k .none)
    | _ => false
  | none => ends.all (entEnd use a)

/-- Values are whether `entity` has been set since the machine started its token, was entered or was returned to. -/
def entSucc (use : List Nat) (K : EMach) : Succ Bool := fun st acc l a _ _ _ v =>
  match v with
  | none => if st || !K.scanner || entBack use K.ends acc l a then some none else none
  | some (as, k?, last) =>
    match entActs use a as with
    | none => none
    | some (_, some (.call _)) => if K.scanner && last then some none else some (some false)
    | some (_, some _) => some none
    | some (a', none) =>
      if K.scanner && last then (if entEnd use a' (K.ends.getD (k?.getD 0) .none) then some none else none)
      else some (some a')

def entEof (use : List Nat) (K : EMach) : EofOk Bool := fun st acc l a => st || !K.scanner || entBack use K.ends acc l a

/-- The static check of one machine, with its table. -/
structure EntCert (use : List Nat) (K : EMach) where
  dfa : Dfa K.nfa
  tab : List (List Bool)
  closed : closed dfa.rows tab false (entSucc use K) (entEof use K) = true

/-- All machines in `use` pass it. -/
def EntCerts (M : Multi) (use : List Nat) := (m : Nat) → m ∈ use → EntCert use (M.mach m)

section
variable {M : Multi} {use : List Nat} (C : EntCerts M use)

def EIn (m : Nat) (q : State) (a : Bool) : Prop := ∃ h : m ∈ use, InTab (C m h).dfa.rows (C m h).tab q a

theorem EIn.init {m : Nat} (h : m ∈ use) : EIn C m [] false := ⟨h, (closed_spec_rel (C m h).dfa (C m h).closed).1⟩

/-- Two configurations, the second one `k` bytes further on. -/
structure PRel (k : Nat) (b : EData) (es : Bool) (c c' : ECfg) : Prop where
  m : c'.m = c.m
  q : c'.q = c.q
  stack : c'.stack = c.stack
  p : c'.p = c.p + k
  ts : c'.ts = c.ts + k ∨ (c.q = [] ∧ (M.mach c.m).scanner = true)
  te : c'.te = c.te + k
  acc : c'.acc = c.acc
  bad : c'.bad = c.bad
  x : XRel k b es c.x c'.x
  tab : c.bad = true ∨ EIn C c.m c.q es
  stk : ∀ y ∈ c.stack, EIn C y.1 y.2 false

theorem goOn_rel {k : Nat} {b : EData} {es es' : Bool} {c c' : ECfg} (h : PRel C k b es c c') (hts : c'.ts = c.ts + k) {s t : ES}
    (hs : SRel k b es' s t) {q : State} {acc : Option Nat}
    (hj : match s.jump with
      | none => EIn C c.m q es'
      | some (.call m) => m ∈ use ∧ EIn C c.m q false
      | some (.goto m) => m ∈ use
      | some .ret => True) :
    ∃ es2, PRel C k b es2 (c.goOn q s acc) (c'.goOn q t acc) := by
  unfold ECfg.goOn
  dsimp only
  rw [hs.jump, h.stack]
  cases hjj : s.jump with
  | none =>
    rw [hjj] at hj
    exact ⟨es', h.m, rfl, rfl, hs.np, .inl hts, hs.te, rfl, h.bad, hs.x, .inr hj, h.stk⟩
  | some j =>
    rw [hjj] at hj
    have hx : XRel k b false s.x t.x := hs.x.weaken (fun g => nomatch g)
    cases j with
    | goto m => exact ⟨false, rfl, rfl, rfl, hs.np, .inl hts, hs.te, rfl, h.bad, hx, .inr (EIn.init C hj), h.stk⟩
    | call m =>
      dsimp only
      split
      · refine ⟨false, rfl, rfl, by dsimp only; rw [h.m], hs.np, .inl hts, hs.te, rfl, h.bad, hx, .inr (EIn.init C hj.1), ?_⟩
        intro y hy
        rcases List.mem_cons.mp hy with rfl | hy
        · exact hj.2
        · exact h.stk y hy
      · exact ⟨false, h.m, h.q, rfl, hs.np, .inl hts, hs.te, rfl, rfl, hx, .inl rfl, h.stk⟩
    | ret =>
      dsimp only
      cases hst : c.stack with
      | nil => exact ⟨false, h.m, h.q, rfl, hs.np, .inl hts, hs.te, rfl, rfl, hx, .inl rfl, by simp⟩
      | cons y r =>
        obtain ⟨m, q'⟩ := y
        refine ⟨false, rfl, rfl, rfl, hs.np, .inl hts, hs.te, rfl, h.bad, hx, .inr (h.stk (m, q') (by rw [hst]; simp)), ?_⟩
        intro y hy
        exact h.stk y (by rw [hst]; exact List.mem_cons_of_mem _ hy)

/-- If the end action looks for the end of the line, it finds the same in both buffers. -/
def BlankEnd (M : Multi) (buf buf' : List Byte) (k : Nat) (s : ES) (e : EEnd) : Prop := ∀ l, e = .cb l → BlankCb M buf buf' k s l

theorem runEnd_rel {buf buf' : List Byte} {k ts te : Nat} {b x y : EData} {es : Bool} (h : XRel k b es x y) (hte : 1 ≤ te) {e : EEnd}
    (he : entEnd use es e = true) (hB : BlankEnd M buf buf' k { x := x, np := te, te := te } e) :
    SRel k b es (M.runEnd buf ts { x := x, np := te, te := te } e) (M.runEnd buf' (ts + k) { x := y, np := te + k, te := te + k } e) ∧
    (match (M.runEnd buf ts { x := x, np := te, te := te } e).jump with
      | none => True
      | some (.call m) => m ∈ use
      | some (.goto m) => m ∈ use
      | some .ret => False) := by
  have h0 : SRel k b es { x := x, np := te, te := te } { x := y, np := te + k, te := te + k } := ⟨h, rfl, hte, rfl, rfl⟩
  cases e with
  | none => exact ⟨h0, trivial⟩
  | cb l =>
    have hs : es = true := he
    subst hs
    refine ⟨callback_rel h0 (hB l rfl), ?_⟩
    show (match (M.callback _ _ _ _).jump with | none => True | some (.call m) => m ∈ use | some (.goto m) => m ∈ use | some .ret => False)
    rw [callback_jump]
    trivial
  | ecb l =>
    have hs : es = true := he
    subst hs
    refine ⟨h0.setX ⟨?_, h.ent, h.langs, h.qlangs, ?_, h.seen⟩, trivial⟩
    · refine ⟨h.d.ls, h.d.lcc, h.d.wlc, h.d.inq, h.d.que, h.d.nest, h.d.ind, h.d.prior, h.d.out, ?_, h.d.ub⟩
      dsimp only
      rw [h.d.ents, h.ent rfl, List.map_append, List.append_assoc]
      rfl
    · dsimp only
      rw [h.elangs, List.append_assoc]
  | call m => exact ⟨⟨h, rfl, hte, rfl, rfl⟩, by simpa [entEnd, Multi.runEnd] using he⟩
  | goto m => exact ⟨⟨h, rfl, hte, rfl, rfl⟩, by simpa [entEnd, Multi.runEnd] using he⟩

theorem finish_rel {buf buf' : List Byte} {k ts te n : Nat} {b x y : EData} {es es0 : Bool} {c c' : ECfg} (h : PRel C k b es0 c c') (hx : XRel k b es x y)
    (hm : c.m ∈ use) (hte : 1 ≤ te) (he : entEnd use es ((M.mach c.m).ends.getD n .none) = true)
    (hB : BlankEnd M buf buf' k { x := x, np := te, te := te } ((M.mach c.m).ends.getD n .none)) :
    ∃ es2, PRel C k b es2 (M.finish buf c ts x te n) (M.finish buf' c' (ts + k) y (te + k) n) := by
  obtain ⟨m', q', st', p', ts', te', acc', x', bad'⟩ := c'
  obtain ⟨rfl, e2, e3, e4, e5, e6, e7, e8, e9, e10, e11⟩ := h
  have h : PRel C k b es0 c ⟨c.m, q', st', p', ts', te', acc', x', bad'⟩ := ⟨rfl, e2, e3, e4, e5, e6, e7, e8, e9, e10, e11⟩
  unfold Multi.finish
  obtain ⟨h1, h2⟩ := runEnd_rel (ts := ts) hx hte he hB
  have hc : PRel C k b es0 { c with ts := ts } ⟨c.m, q', st', p', ts + k, te', acc', x', bad'⟩ :=
    ⟨h.m, h.q, h.stack, h.p, .inl rfl, h.te, h.acc, h.bad, h.x, h.tab, h.stk⟩
  refine goOn_rel C hc rfl (es' := false) ⟨h1.x.weaken (fun g => nomatch g), h1.np, h1.pos, h1.te, h1.jump⟩ ?_
  revert h2
  generalize (M.runEnd buf ts { x := x, np := te, te := te } ((M.mach c.m).ends.getD n .none)).jump = j
  intro h2
  cases j with
  | none => exact EIn.init C hm
  | some j =>
    cases j with
    | call m => exact ⟨h2, EIn.init C hm⟩
    | goto m => exact h2
    | ret => trivial

/-- All callbacks of the next step find the same in both buffers. -/
def BlankStep (M : Multi) (buf buf' : List Byte) (k : Nat) (c : ECfg) : Prop :=
  let K := M.mach c.m
  match (buf[c.p]?).bind fun b => K.nfa.delta c.q b.toNat (condAt buf c.p c.x.d) with
  | none =>
    match K.nfa.accepts c.q with
    | some n => BlankActs M buf buf' k c.ts { x := c.x, np := c.p + 1, te := c.te } (K.nfa.leaveActs c.q) ∧
      BlankEnd M buf buf' k { x := (M.acts buf c.ts { x := c.x, np := c.p + 1, te := c.te } (K.nfa.leaveActs c.q)).x, np := c.p, te := c.p } (K.ends.getD n .none)
    | none => ∀ n, c.acc = some n → BlankEnd M buf buf' k { x := c.x, np := c.te, te := c.te } (K.ends.getD n .none)
  | some (q', as) =>
    let ts := if K.scanner && c.q.isEmpty then c.p else c.ts
    let k? := if K.scanner then K.nfa.accepts q' else none
    let last := K.scanner && K.nfa.isLast q'
    let te := if k?.isSome && !last then c.p + 1 else c.te
    let s := M.acts buf ts { x := c.x, np := c.p + 1, te := te } as
    BlankActs M buf buf' k ts { x := c.x, np := c.p + 1, te := te } as ∧
    (s.jump = none → last = true → BlankEnd M buf buf' k { x := s.x, np := s.np, te := s.np } (K.ends.getD (k?.getD 0) .none))

/-- The scanner has read something when it falls back. -/
def Moved (c : ECfg) : Prop := (c.q ≠ [] → 1 ≤ c.p) ∧ (c.acc.isSome = true → 1 ≤ c.te)

end

theorem callback_te (M : Multi) (buf : List Byte) (l ts : Nat) {s : ES} (h : 1 ≤ s.te) : 1 ≤ (M.callback buf l ts s).te := by
  unfold Multi.callback
  dsimp only
  split <;> try exact h
  split
  · exact h
  · dsimp only; omega

theorem act_te (M : Multi) (buf : List Byte) (ts : Nat) {s : ES} (a : Act) (h : 1 ≤ s.te) : 1 ≤ (M.act buf ts s a).te := by
  cases a with
  | cb => exact callback_te M buf 0 ts h
  | emb e =>
    cases e with
    | cb l => exact callback_te M buf l ts h
    | eofCommit => unfold Multi.act; dsimp only; split <;> exact h
    | _ => exact h
  | _ => exact h

theorem acts_te (M : Multi) (buf : List Byte) (ts : Nat) : ∀ (as : List Act) {s : ES}, 1 ≤ s.te → 1 ≤ (M.acts buf ts s as).te
  | [], _, h => h
  | a :: r, s, h => by
    unfold Multi.acts
    dsimp only
    split
    · exact act_te M buf ts a h
    · exact acts_te M buf ts r (act_te M buf ts a h)

theorem goOn_p (c : ECfg) (q : State) (s : ES) (acc : Option Nat) : (c.goOn q s acc).p = s.np := by
  unfold ECfg.goOn
  dsimp only
  split
  · rfl
  · rfl
  · split <;> rfl
  · split <;> rfl

theorem goOn_moved {c : ECfg} {q : State} {s : ES} {acc : Option Nat} (hp : 1 ≤ s.np) (ht : acc.isSome = true → 1 ≤ s.te) :
    Moved (c.goOn q s acc) := by
  refine ⟨fun _ => by rw [goOn_p]; exact hp, ?_⟩
  unfold ECfg.goOn
  dsimp only
  split
  · exact ht
  · intro h; cases h
  · split <;> (intro h; cases h)
  · split <;> (intro h; cases h)

section
variable {M : Multi} {use : List Nat} (C : EntCerts M use)

theorem finish_moved {buf buf' : List Byte} {k ts te n : Nat} {b x y : EData} {es : Bool} {c : ECfg} (hx : XRel k b es x y) (hte : 1 ≤ te)
    (he : entEnd use es ((M.mach c.m).ends.getD n .none) = true)
    (hB : BlankEnd M buf buf' k { x := x, np := te, te := te } ((M.mach c.m).ends.getD n .none)) : Moved (M.finish buf c ts x te n) :=
  goOn_moved (runEnd_rel (ts := ts) hx hte he hB).1.pos (fun h => nomatch h)

/-- One step in both buffers. -/
theorem step_rel {buf buf' : List Byte} {k : Nat} {b : EData} {es : Bool} {c c' : ECfg} (h : PRel C k b es c c') (hm : Moved c)
    (hd : ((buf'[c.p + k]?).bind fun b => (M.mach c.m).nfa.delta c.q b.toNat (condAt buf' (c.p + k) c'.x.d)) =
      ((buf[c.p]?).bind fun b => (M.mach c.m).nfa.delta c.q b.toNat (condAt buf c.p c.x.d)))
    (hB : BlankStep M buf buf' k c) :
    (M.step buf c = none ∧ M.step buf' c' = none) ∨
    ∃ c1 c1' es1, M.step buf c = some c1 ∧ M.step buf' c' = some c1' ∧ PRel C k b es1 c1 c1' ∧ Moved c1 := by
  obtain ⟨m', q2', st', p', ts', te', acc', x', bad'⟩ := c'
  obtain ⟨e1, e2, e3, e4, e5, e6, e7, e8, e9, e10, e11⟩ := h
  dsimp only at e1 e2 e3 e4 e5 e6 e7 e8 e9
  subst e1 e2 e3 e4 e6 e7 e8
  generalize hc' : (⟨c.m, c.q, c.stack, c.p + k, ts', c.te + k, c.acc, x', c.bad⟩ : ECfg) = c' at hd ⊢
  have h : PRel C k b es c c' := by rw [← hc']; exact ⟨rfl, rfl, rfl, rfl, e5, rfl, rfl, rfl, e9, e10, e11⟩
  unfold Multi.step
  rw [h.bad]
  by_cases hb : c.bad = true
  · left; simp [hb]
  rw [Bool.not_eq_true] at hb
  have ht : EIn C c.m c.q es := by
    rcases h.tab with g | g
    · rw [hb] at g; cases g
    · exact g
  obtain ⟨hu, htab⟩ := ht
  obtain ⟨heof, hrow⟩ := (closed_spec_rel (C c.m hu).dfa (C c.m hu).closed).2 c.q es htab
  simp only [hb, Bool.false_eq_true, if_false]
  rw [h.m, h.q, h.p, hd]
  unfold BlankStep at hB
  dsimp only at hB
  cases hv : (buf[c.p]?).bind fun b => (M.mach c.m).nfa.delta c.q b.toNat (condAt buf c.p c.x.d) with
  | none =>
    rw [hv] at hB
    dsimp only at hB ⊢
    by_cases hst : (c.q.isEmpty || !(M.mach c.m).scanner) = true
    · left; simp [hst]
    rw [if_neg hst, if_neg hst]
    have hne : c.q ≠ [] := by
      intro g; rw [g] at hst; simp at hst
    have hsc : (M.mach c.m).scanner = true := by
      cases hh : (M.mach c.m).scanner with
      | true => rfl
      | false => rw [hh] at hst; simp at hst
    have hq0 : c.q.isEmpty = false := by cases hh : c.q with | nil => exact absurd hh hne | cons _ _ => rfl
    have hts : c'.ts = c.ts + k := by
      rcases h.ts with g | g
      · exact g
      · exact absurd g.1 hne
    -- the check of the fallback
    have hfb : entBack use (M.mach c.m).ends ((M.mach c.m).nfa.accepts c.q) ((M.mach c.m).nfa.leaveActs c.q) es = true := by
      cases hbb : buf[c.p]? with
      | none =>
        unfold entEof at heof
        rw [hq0, hsc] at heof
        simpa using heof
      | some b0 =>
        rw [hbb] at hv
        obtain ⟨bb, _, r, hr, _⟩ := hrow b0 (condAt buf c.p c.x.d)
        simp only [Option.bind_some] at hv
        rw [hv] at hr
        unfold entSucc view at hr
        simp only [Option.map_none] at hr
        split at hr
        · rename_i g
          rw [hq0, hsc] at g
          simpa using g
        · cases hr
    unfold Multi.fallback
    dsimp only
    rw [h.m, h.q]
    cases ha : (M.mach c.m).nfa.accepts c.q with
    | some n =>
      rw [ha] at hfb hB
      dsimp only at hB ⊢
      unfold entBack at hfb
      dsimp only at hfb
      cases he : entActs use es ((M.mach c.m).nfa.leaveActs c.q) with
      | none => rw [he] at hfb; simp at hfb
      | some z =>
        obtain ⟨es', j⟩ := z
        cases j with
        | some j => rw [he] at hfb; simp at hfb
        | none =>
          rw [he] at hfb
          dsimp only at hfb
          have hs0 : SRel k b es { x := c.x, np := c.p + 1, te := c.te } { x := c'.x, np := c'.p + 1, te := c'.te } :=
            ⟨h.x, by dsimp only; rw [h.p]; omega, by dsimp only; omega, h.te, rfl⟩
          obtain ⟨g1, g2, _⟩ := acts_prel (M := M) (buf := buf) (buf' := buf') (ts := c.ts) he hs0 rfl hB.1
          obtain ⟨es2, g3⟩ := finish_rel C (ts := c.ts) h g1.x hu (hm.1 hne) hfb hB.2
          have g4 := finish_moved (c := c) (ts := c.ts) g1.x (hm.1 hne) hfb hB.2
          right
          refine ⟨_, _, es2, rfl, rfl, ?_, g4⟩
          rw [hts, h.p]
          rw [h.p] at g3
          exact g3
    | none =>
      rw [ha] at hfb hB
      dsimp only at hB ⊢
      rw [h.acc]
      cases hacc : c.acc with
      | none => left; exact ⟨rfl, rfl⟩
      | some n =>
        have he : entEnd use es ((M.mach c.m).ends.getD n .none) = true := by
          unfold entBack at hfb
          dsimp only at hfb
          rw [List.getD_eq_getElem?_getD]
          cases hg : (M.mach c.m).ends[n]? with
          | none => rfl
          | some e => exact List.all_eq_true.mp hfb e (List.mem_of_getElem? hg)
        have hte : 1 ≤ c.te := hm.2 (by rw [hacc]; rfl)
        obtain ⟨es2, g3⟩ := finish_rel C (ts := c.ts) h h.x hu hte he (hB n hacc)
        have g4 := finish_moved (c := c) (ts := c.ts) h.x hte he (hB n hacc)
        right
        refine ⟨_, _, es2, rfl, rfl, ?_, g4⟩
        rw [hts, h.te]
        exact g3
  | some z =>
    obtain ⟨q', as⟩ := z
    rw [hv] at hB
    dsimp only at hB ⊢
    -- `ts` and `te`
    have hts : (if ((M.mach c.m).scanner && c.q.isEmpty) = true then c.p + k else c'.ts) =
        (if ((M.mach c.m).scanner && c.q.isEmpty) = true then c.p else c.ts) + k := by
      split
      · rfl
      · rename_i g
        rcases h.ts with g1 | g1
        · exact g1
        · rw [g1.1, g1.2] at g; simp at g
    rw [hts]
    generalize htsg : (if ((M.mach c.m).scanner && c.q.isEmpty) = true then c.p else c.ts) = ts at hB ⊢
    generalize hk : (if (M.mach c.m).scanner = true then (M.mach c.m).nfa.accepts q' else none) = k? at hB ⊢
    generalize hl : ((M.mach c.m).scanner && (M.mach c.m).nfa.isLast q') = last at hB ⊢
    have hte : (if (k?.isSome && !last) = true then c.p + k + 1 else c'.te) = (if (k?.isSome && !last) = true then c.p + 1 else c.te) + k := by
      split
      · omega
      · exact h.te
    rw [hte]
    generalize hteg : (if (k?.isSome && !last) = true then c.p + 1 else c.te) = te at hB ⊢
    -- the check of the transition
    obtain ⟨b0, hb0, hdl⟩ := Option.bind_eq_some_iff.mp hv
    obtain ⟨bb, _, r, hr, hr'⟩ := hrow b0 (condAt buf c.p c.x.d)
    rw [hdl] at hr hr'
    unfold entSucc view at hr
    simp only [Option.map_some] at hr
    cases he : entActs use es as with
    | none => rw [he] at hr; cases hr
    | some w =>
      obtain ⟨es', j⟩ := w
      rw [he] at hr
      have hs0 : SRel k b es { x := c.x, np := c.p + 1, te := te } { x := c'.x, np := c.p + k + 1, te := te + k } :=
        ⟨h.x, by dsimp only; omega, by dsimp only; omega, rfl, rfl⟩
      obtain ⟨g1, g2, g3⟩ := acts_prel (M := M) (buf := buf) (buf' := buf') (ts := ts) he hs0 rfl hB.1
      have hte1 : k?.isSome = true → last = false → 1 ≤ (M.acts buf ts { x := c.x, np := c.p + 1, te := te } as).te := by
        intro hk1 hl1
        apply acts_te
        dsimp only
        rw [← hteg, hk1, hl1]
        simp
      have hc : PRel C k b es { c with ts := ts } { c' with ts := ts + k } :=
        ⟨h.m, h.q, h.stack, h.p, .inl rfl, h.te, h.acc, h.bad, h.x, h.tab, h.stk⟩
      right
      cases j with
      | some j =>
        have hj1 : (M.acts buf ts { x := c.x, np := c.p + 1, te := te } as).jump.isSome = true := by rw [g2]; rfl
        have hj2 : (M.acts buf' (ts + k) { x := c'.x, np := c.p + k + 1, te := te + k } as).jump.isSome = true := by rw [g1.jump]; exact hj1
        rw [if_pos hj1, if_pos hj2]
        have hgo := goOn_rel C hc rfl g1 (q := if last = true then [] else q') (acc := none) (by
          rw [g2]
          cases j with
          | goto m => exact g3 m (.inr rfl)
          | ret => trivial
          | call m =>
            refine ⟨g3 m (.inl rfl), ?_⟩
            dsimp only at hr
            by_cases hll : last = true
            · rw [if_pos hll]; exact EIn.init C hu
            · rw [if_neg hll]
              rw [hl, if_neg hll] at hr
              simp only [Option.some.injEq] at hr
              obtain ⟨q2, as2, e1, _, _, e4⟩ := hr' false hr.symm
              simp only [Option.some.injEq, Prod.mk.injEq] at e1
              rw [e1.1]
              exact ⟨hu, e4⟩)
        obtain ⟨es2, hgo⟩ := hgo
        simp only [h.m, h.q, h.p, h.acc, h.bad, hb] at hgo
        exact ⟨_, _, es2, rfl, rfl, hgo, goOn_moved g1.pos (fun h => nomatch h)⟩
      | none =>
        have hj1 : ¬ (M.acts buf ts { x := c.x, np := c.p + 1, te := te } as).jump.isSome = true := by rw [g2]; simp
        have hj2 : ¬ (M.acts buf' (ts + k) { x := c'.x, np := c.p + k + 1, te := te + k } as).jump.isSome = true := by rw [g1.jump]; exact hj1
        rw [if_neg hj1, if_neg hj2]
        dsimp only at hr
        rw [hl] at hr
        by_cases hll : last = true
        · rw [if_pos hll, if_pos hll]
          rw [if_pos hll] at hr
          have hsc : (M.mach c.m).scanner = true := by
            rw [← hl, Bool.and_eq_true] at hll; exact hll.1
          rw [if_pos hsc] at hk
          rw [hk] at hr
          split at hr
          · rename_i hen
            have hB2 := hB.2 g2 hll
            obtain ⟨es2, g5⟩ := finish_rel C (ts := ts) h g1.x hu g1.pos hen hB2
            have g6 := finish_moved (c := c) (ts := ts) g1.x g1.pos hen hB2
            refine ⟨_, _, es2, rfl, rfl, ?_, g6⟩
            rw [g1.np]
            exact g5
          · cases hr
        · rw [if_neg hll, if_neg hll]
          rw [if_neg hll] at hr
          simp only [Option.some.injEq] at hr
          obtain ⟨q2, as2, e1, _, _, e4⟩ := hr' es' hr.symm
          simp only [Option.some.injEq, Prod.mk.injEq] at e1
          rw [h.acc]
          obtain ⟨es2, hgo⟩ := goOn_rel C hc rfl g1 (q := q') (acc := if k?.isSome = true then k? else if c.q.isEmpty = true then none else c.acc) (by
            rw [g2]
            rw [e1.1]
            exact ⟨hu, e4⟩)
          simp only [h.m, h.q, h.p, h.acc, h.bad, hb] at hgo
          refine ⟨_, _, es2, rfl, rfl, hgo, goOn_moved g1.pos ?_⟩
          intro hacc
          rw [Bool.not_eq_true] at hll
          by_cases hks : k?.isSome = true
          · exact hte1 hks hll
          · rw [if_neg hks] at hacc
            apply acts_te
            dsimp only
            rw [← hteg]
            rw [Bool.not_eq_true] at hks
            rw [hks]
            simp only [Bool.false_and, Bool.false_eq_true, if_false]
            split at hacc
            · cases hacc
            · exact hm.2 hacc

end

/-! ### The two buffers -/

/-- A line begins after the text. -/
def Fresh (T : List Byte) : Prop := T = [] ∨ ∃ T' b, T = T' ++ [b] ∧ (b = 10 ∨ b = 12 ∨ b = 13)

theorem getElem?_shift (T buf R : List Byte) {p : Nat} (h : p < buf.length ∨ R = []) : (T ++ (buf ++ R))[p + T.length]? = buf[p]? := by
  rw [List.getElem?_append_right (by omega), Nat.add_sub_cancel]
  rcases h with h | h
  · exact List.getElem?_append_left h
  · rw [h, List.append_nil]

theorem startsLine_shift {T : List Byte} (hT : Fresh T) (buf R : List Byte) {p : Nat} (h : p ≤ buf.length ∨ R = []) :
    startsLineAt (T ++ (buf ++ R)) (p + T.length) = startsLineAt buf p := by
  unfold startsLineAt
  cases p with
  | zero =>
    rcases hT with rfl | ⟨T', b, rfl, hb⟩
    · rfl
    · have : (T' ++ [b] ++ (buf ++ R))[0 + (T' ++ [b]).length - 1]? = some b := by
        rw [List.append_assoc, show 0 + (T' ++ [b]).length - 1 = T'.length by simp]
        rw [List.getElem?_append_right (Nat.le_refl _), Nat.sub_self]
        rfl
      rw [this]
      rcases hb with rfl | rfl | rfl <;> simp
  | succ p =>
    have h1 : p + 1 + T.length - 1 = p + T.length := by omega
    rw [h1, getElem?_shift T buf R (by rcases h with h | h; exact .inl (by omega); exact .inr h)]
    have h2 : (p + 1 + T.length == 0) = false := by rw [beq_eq_false_iff_ne]; omega
    have h3 : (p + 1 == 0) = false := by rw [beq_eq_false_iff_ne]; omega
    rw [h2, h3, Nat.add_sub_cancel]

/-- The conditions are the same, but for the one that looks ahead. -/
theorem condAt_shift {T : List Byte} (hT : Fresh T) (buf R : List Byte) {p : Nat} {b d e : Data} (h : VRel T.length b d e)
    (hp : p ≤ buf.length ∨ R = []) {c : Cond} (hc : c = .crAlone → p + 1 < buf.length ∨ R = []) :
    condAt (T ++ (buf ++ R)) (p + T.length) e c = condAt buf p d c := by
  cases c with
  | crAlone =>
    unfold condAt
    rw [show p + T.length + 1 = p + 1 + T.length by omega, getElem?_shift T buf R (hc rfl)]
  | nestZero => simp only [condAt, h.nest]
  | nested => simp only [condAt, h.nest]
  | noCode => simp only [condAt, h.lcc]
  | someCode => simp only [condAt, h.lcc]
  | startsLine => exact startsLine_shift hT buf R hp
  | midLine => simp only [condAt, startsLine_shift hT buf R hp]
  | indLt => simp only [condAt, h.ind, h.prior]
  | indGe => simp only [condAt, h.ind, h.prior]

/-- Only transitions on a carriage return look ahead. -/
def crOnly (m : Nfa) : Bool :=
  m.start.all (fun e => !e.conds.contains .crAlone || e.mask == Cls.chr 13) &&
  m.follow.all fun l => l.all fun e => !e.conds.contains .crAlone || e.mask == Cls.chr 13

theorem crOnly_edge {m : Nfa} (h : crOnly m = true) {q : State} {e : Edge} (he : e ∈ m.edges q) :
    .crAlone ∉ e.conds ∨ e.mask = Cls.chr 13 := by
  have key : (!e.conds.contains .crAlone || e.mask == Cls.chr 13) = true := by
    unfold crOnly at h
    rw [Bool.and_eq_true, List.all_eq_true, List.all_eq_true] at h
    unfold Nfa.edges at he
    split at he
    · exact h.1 e he
    · rw [List.mem_flatMap] at he
      obtain ⟨i, _, hi⟩ := he
      rw [List.getD_eq_getElem?_getD] at hi
      cases hf : m.follow[i]? with
      | none => rw [hf] at hi; simp at hi
      | some l =>
        rw [hf] at hi
        exact List.all_eq_true.mp (h.2 l (List.mem_of_getElem? hf)) e hi
  rw [Bool.or_eq_true, Bool.not_eq_true', beq_iff_eq] at key
  rcases key with g | g
  · left; simpa using g
  · right; exact g

theorem has_cr {b : Nat} (h : b ≠ 13) : Cls.has (Cls.chr 13) b = false := by
  rw [has_testBit]
  unfold Cls.chr
  rw [Nat.testBit_shiftLeft]
  by_cases hb : b ≥ 13
  · have : (1 : Nat).testBit (b - 13) = false := by
      cases h2 : (1 : Nat).testBit (b - 13) with
      | false => rfl
      | true => have := Nat.testBit_one_eq_true_iff_self_eq_zero.mp h2; omega
    simp [this]
  · simp [hb]

theorem delta_cr {m : Nfa} (h : crOnly m = true) (q : State) {b : Nat} (hb : b ≠ 13) {cv cv' : Cond → Bool}
    (hc : ∀ c, c ≠ .crAlone → cv c = cv' c) : m.delta q b cv = m.delta q b cv' := by
  have : (m.edges q).filter (fun e => e.mask.has b && e.conds.all cv) = (m.edges q).filter (fun e => e.mask.has b && e.conds.all cv') := by
    apply List.filter_congr
    intro e he
    rcases crOnly_edge h he with g | g
    · have : e.conds.all cv = e.conds.all cv' := by
        rw [Bool.eq_iff_iff, List.all_eq_true, List.all_eq_true]
        constructor
        · intro hh c hcc; rw [← hc c (fun x => g (x ▸ hcc))]; exact hh c hcc
        · intro hh c hcc; rw [hc c (fun x => g (x ▸ hcc))]; exact hh c hcc
      rw [this]
    · rw [g, has_cr hb]; rfl
  unfold Nfa.delta Nfa.enabled
  rw [this]

/-! ### The rest of the buffer -/

theorem blankEntry_shift (T buf : List Byte) (p : Nat) : blankEntry (T ++ buf) (p + T.length) = (blankEntry buf p).map (· + T.length) := by
  unfold blankEntry
  rw [show p + T.length + 1 = T.length + (p + 1) by omega, List.drop_append]
  simp only [Option.map_map]
  rw [List.drop_of_length_le (by omega : T.length ≤ T.length + (p + 1)), List.nil_append, show T.length + (p + 1) - T.length = p + 1 by omega]
  congr 1
  funext x
  simp only [Function.comp]
  omega

theorem BlankCb.shift (M : Multi) (T buf : List Byte) (s : ES) (l : Nat) : BlankCb M buf (T ++ buf) T.length s l :=
  fun _ => blankEntry_shift T buf _

theorem BlankActs.shift (M : Multi) (T buf : List Byte) (ts : Nat) : ∀ (as : List Act) (s : ES), BlankActs M buf (T ++ buf) T.length ts s as
  | [], _ => trivial
  | _ :: r, s => ⟨fun _ => BlankCb.shift M T buf s 0, fun l _ => BlankCb.shift M T buf s l, BlankActs.shift M T buf ts r _⟩

theorem BlankEnd.shift (M : Multi) (T buf : List Byte) (s : ES) (e : EEnd) : BlankEnd M buf (T ++ buf) T.length s e :=
  fun l _ => BlankCb.shift M T buf s l

theorem BlankStep.shift (M : Multi) (T buf : List Byte) (c : ECfg) : BlankStep M buf (T ++ buf) T.length c := by
  unfold BlankStep
  dsimp only
  split
  · split
    · exact ⟨BlankActs.shift .., BlankEnd.shift M T buf _ _⟩
    · exact fun _ _ => BlankEnd.shift M T buf _ _
  · exact ⟨BlankActs.shift .., fun _ _ => BlankEnd.shift M T buf _ _⟩

section
variable {M : Multi} {use : List Nat} (C : EntCerts M use)

/-- The parser reads a text at the end of a buffer as it reads the text alone. -/
theorem run_shift {T : List Byte} (hT : Fresh T) (buf : List Byte) {b : EData} : ∀ (n : Nat) {es : Bool} {c c' : ECfg},
    PRel C T.length b es c c' → Moved c →
    (∃ es2, PRel C T.length b es2 (M.run buf n c) (M.run (T ++ buf) n c')) ∧
    (M.step buf (M.run buf n c) = none → M.step (T ++ buf) (M.run (T ++ buf) n c') = none)
  | 0, es, c, c', h, hm => by
    refine ⟨⟨es, h⟩, ?_⟩
    show M.step buf c = none → M.step (T ++ buf) c' = none
    intro h0
    have hd : (((T ++ buf)[c.p + T.length]?).bind fun b => (M.mach c.m).nfa.delta c.q b.toNat (condAt (T ++ buf) (c.p + T.length) c'.x.d)) =
        ((buf[c.p]?).bind fun b => (M.mach c.m).nfa.delta c.q b.toNat (condAt buf c.p c.x.d)) := by
      have := getElem?_shift T buf [] (p := c.p) (.inr rfl)
      rw [List.append_nil] at this
      rw [this]
      congr 1
      funext b0
      have hcv : condAt (T ++ buf) (c.p + T.length) c'.x.d = condAt buf c.p c.x.d := by
        funext cc
        have := condAt_shift hT buf [] h.x.d (p := c.p) (.inr rfl) (c := cc) (fun _ => .inr rfl)
        rwa [List.append_nil] at this
      rw [hcv]
    rcases step_rel C h hm hd (BlankStep.shift M T buf c) with g | ⟨c1, c1', es1, g1, _⟩
    · exact g.2
    · rw [h0] at g1; cases g1
  | n + 1, es, c, c', h, hm => by
    have hd : (((T ++ buf)[c.p + T.length]?).bind fun b => (M.mach c.m).nfa.delta c.q b.toNat (condAt (T ++ buf) (c.p + T.length) c'.x.d)) =
        ((buf[c.p]?).bind fun b => (M.mach c.m).nfa.delta c.q b.toNat (condAt buf c.p c.x.d)) := by
      have := getElem?_shift T buf [] (p := c.p) (.inr rfl)
      rw [List.append_nil] at this
      rw [this]
      congr 1
      funext b0
      have hcv : condAt (T ++ buf) (c.p + T.length) c'.x.d = condAt buf c.p c.x.d := by
        funext cc
        have := condAt_shift hT buf [] h.x.d (p := c.p) (.inr rfl) (c := cc) (fun _ => .inr rfl)
        rwa [List.append_nil] at this
      rw [hcv]
    show (∃ es2, PRel C T.length b es2 (match M.step buf c with | none => c | some c' => M.run buf n c')
      (match M.step (T ++ buf) c' with | none => c' | some c' => M.run (T ++ buf) n c')) ∧
      (M.step buf (match M.step buf c with | none => c | some c' => M.run buf n c') = none →
        M.step (T ++ buf) (match M.step (T ++ buf) c' with | none => c' | some c' => M.run (T ++ buf) n c') = none)
    rcases step_rel C h hm hd (BlankStep.shift M T buf c) with ⟨g1, g2⟩ | ⟨c1, c1', es1, g1, g2, g3, g4⟩
    · rw [g1, g2]
      exact ⟨⟨es, h⟩, fun _ => g2⟩
    · rw [g1, g2]
      exact run_shift hT buf n g3 g4

end

/-! ### The beginning of a buffer -/

/-- As `BlankCb`, when the first buffer goes on in the second one: the callback is inside of it. -/
def tameCb (M : Multi) (n : Nat) (s : ES) (l : Nat) : Bool :=
  M.op l s.x.d.ent != .checkBlank || (decide (1 ≤ s.np) && decide (s.np < n))

def tameActs (M : Multi) (buf : List Byte) (ts : Nat) : ES → List Act → Bool
  | _, [] => true
  | s, a :: r => (match a with | .cb => tameCb M buf.length s 0 | .emb (.cb l) => tameCb M buf.length s l | _ => true) &&
    tameActs M buf ts (M.act buf ts s a) r

def tameEnd (M : Multi) (n : Nat) (s : ES) (e : EEnd) : Bool := match e with | .cb l => tameCb M n s l | _ => true

/-- The next step does not depend on what follows the buffer. -/
def tameStep (M : Multi) (buf : List Byte) (c : ECfg) : Bool :=
  let K := M.mach c.m
  decide (c.p < buf.length) &&
  match (buf[c.p]?).bind fun b => K.nfa.delta c.q b.toNat (condAt buf c.p c.x.d) with
  | none =>
    match K.nfa.accepts c.q with
    | some n => tameActs M buf c.ts { x := c.x, np := c.p + 1, te := c.te } (K.nfa.leaveActs c.q) &&
      tameEnd M buf.length { x := (M.acts buf c.ts { x := c.x, np := c.p + 1, te := c.te } (K.nfa.leaveActs c.q)).x, np := c.p, te := c.p } (K.ends.getD n .none)
    | none => match c.acc with | some n => tameEnd M buf.length { x := c.x, np := c.te, te := c.te } (K.ends.getD n .none) | none => true
  | some (q', as) =>
    let ts := if K.scanner && c.q.isEmpty then c.p else c.ts
    let k? := if K.scanner then K.nfa.accepts q' else none
    let last := K.scanner && K.nfa.isLast q'
    let te := if k?.isSome && !last then c.p + 1 else c.te
    let s := M.acts buf ts { x := c.x, np := c.p + 1, te := te } as
    tameActs M buf ts { x := c.x, np := c.p + 1, te := te } as &&
    (s.jump.isSome || !last || tameEnd M buf.length { x := s.x, np := s.np, te := s.np } (K.ends.getD (k?.getD 0) .none))

/-- `n` steps do not. -/
def tameRun (M : Multi) (buf : List Byte) : Nat → ECfg → Bool
  | 0, _ => true
  | n + 1, c => tameStep M buf c && match M.step buf c with | none => false | some c' => tameRun M buf n c'

theorem blankRest_append : ∀ (l R : List Byte), blankRest (l ++ [10] ++ R) = blankRest (l ++ [10])
  | [], R => rfl
  | a :: l, R => by
    have h1 := blankRest_append l R
    show blankRest (a :: (l ++ [10] ++ R)) = blankRest (a :: (l ++ [10]))
    unfold blankRest
    rw [h1]
    have h2 : (l ++ [10] ++ R).head? = (l ++ [10]).head? := by cases l <;> rfl
    rw [h2]

theorem blankEntry_prefix (T buf R : List Byte) {p : Nat} (h : p < buf.length) :
    blankEntry (T ++ (buf ++ [10] ++ R)) (p + T.length) = (blankEntry (buf ++ [10]) p).map (· + T.length) := by
  rw [blankEntry_shift]
  congr 1
  unfold blankEntry
  congr 1
  have h1 : (buf ++ [10]).drop (p + 1) = buf.drop (p + 1) ++ [10] := List.drop_append_of_le_length (by omega)
  have h2 : (buf ++ [10] ++ R).drop (p + 1) = buf.drop (p + 1) ++ [10] ++ R := by
    rw [List.append_assoc, List.drop_append_of_le_length (by omega), List.append_assoc]
  rw [h1, h2, blankRest_append]

section
variable {M : Multi} {T A R : List Byte}

theorem BlankCb.tame {s : ES} {l : Nat} (h : tameCb M (A ++ [10]).length s l = true) :
    BlankCb M (A ++ [10]) (T ++ (A ++ [10] ++ R)) T.length s l := by
  intro ho
  unfold tameCb at h
  rw [ho] at h
  simp only [bne_self_eq_false, Bool.false_or, Bool.and_eq_true, decide_eq_true_eq] at h
  rw [List.length_append, List.length_singleton] at h
  exact blankEntry_prefix T A R (by omega)

theorem BlankActs.tame {ts : Nat} : ∀ {as : List Act} {s : ES}, tameActs M (A ++ [10]) ts s as = true →
    BlankActs M (A ++ [10]) (T ++ (A ++ [10] ++ R)) T.length ts s as
  | [], _, _ => trivial
  | a :: r, s, h => by
    unfold tameActs at h
    rw [Bool.and_eq_true] at h
    refine ⟨?_, ?_, BlankActs.tame h.2⟩
    · rintro rfl; exact BlankCb.tame h.1
    · rintro l rfl; exact BlankCb.tame h.1

theorem BlankEnd.tame {s : ES} {e : EEnd} (h : tameEnd M (A ++ [10]).length s e = true) :
    BlankEnd M (A ++ [10]) (T ++ (A ++ [10] ++ R)) T.length s e := by
  rintro l rfl; exact BlankCb.tame h

theorem BlankStep.tame {c : ECfg} (h : tameStep M (A ++ [10]) c = true) :
    BlankStep M (A ++ [10]) (T ++ (A ++ [10] ++ R)) T.length c := by
  unfold tameStep at h
  rw [Bool.and_eq_true] at h
  obtain ⟨_, h⟩ := h
  unfold BlankStep
  dsimp only at h ⊢
  revert h
  split
  · split
    · intro h
      rw [Bool.and_eq_true] at h
      exact ⟨BlankActs.tame h.1, BlankEnd.tame h.2⟩
    · intro h n hn
      rw [hn] at h
      exact BlankEnd.tame h
  · intro h
    rw [Bool.and_eq_true] at h
    refine ⟨BlankActs.tame h.1, fun hj hl => ?_⟩
    rcases Bool.or_eq_true_iff.mp h.2 with g | g
    · rcases Bool.or_eq_true_iff.mp g with g | g
      · rw [hj] at g; cases g
      · rw [hl] at g; cases g
    · exact BlankEnd.tame g

variable {use : List Nat} (C : EntCerts M use)

/-- The parser reads a text that ends with a line feed in the middle of a buffer as it reads the text alone, as long as it does not
go beyond its end. -/
theorem run_prefix (hT : Fresh T) (hcr : ∀ m ∈ use, crOnly (M.mach m).nfa = true) {b : EData} :
    ∀ (n : Nat) {es : Bool} {c c' : ECfg}, PRel C T.length b es c c' → Moved c → tameRun M (A ++ [10]) n c = true →
    ∃ es2, PRel C T.length b es2 (M.run (A ++ [10]) n c) (M.run (T ++ (A ++ [10] ++ R)) n c')
  | 0, es, _, _, h, _, _ => ⟨es, h⟩
  | n + 1, es, c, c', h, hm, ht => by
    unfold tameRun at ht
    rw [Bool.and_eq_true] at ht
    have hp : c.p < (A ++ [10]).length := by
      have := ht.1
      unfold tameStep at this
      rw [Bool.and_eq_true, decide_eq_true_eq] at this
      exact this.1
    have hstep : M.step (A ++ [10]) c ≠ none := by
      intro g
      have := ht.2
      rw [g] at this
      cases this
    have hu : c.m ∈ use := by
      rcases h.tab with g | g
      · exfalso; apply hstep; unfold Multi.step; rw [if_pos g]
      · exact g.1
    have hd : (((T ++ (A ++ [10] ++ R))[c.p + T.length]?).bind fun b => (M.mach c.m).nfa.delta c.q b.toNat (condAt (T ++ (A ++ [10] ++ R)) (c.p + T.length) c'.x.d)) =
        (((A ++ [10])[c.p]?).bind fun b => (M.mach c.m).nfa.delta c.q b.toNat (condAt (A ++ [10]) c.p c.x.d)) := by
      rw [getElem?_shift T (A ++ [10]) R (.inl hp)]
      cases hb : (A ++ [10])[c.p]? with
      | none => rfl
      | some b0 =>
        simp only [Option.bind_some]
        by_cases hp1 : c.p + 1 < (A ++ [10]).length
        · have hcv : condAt (T ++ (A ++ [10] ++ R)) (c.p + T.length) c'.x.d = condAt (A ++ [10]) c.p c.x.d := by
            funext cc
            exact condAt_shift hT _ R h.x.d (.inl (Nat.le_of_lt hp)) (fun _ => .inl hp1)
          rw [hcv]
        · have hA : c.p = A.length := by rw [List.length_append, List.length_singleton] at hp hp1; omega
          have : b0 = 10 := by
            rw [hA, List.getElem?_append_right (Nat.le_refl _), Nat.sub_self] at hb
            simpa using hb.symm
          subst this
          apply delta_cr (hcr c.m hu) _ (by decide)
          intro cc hcc
          exact condAt_shift hT _ R h.x.d (.inl (Nat.le_of_lt hp)) (fun g => absurd g hcc)
    show ∃ es2, PRel C T.length b es2 (match M.step (A ++ [10]) c with | none => c | some c' => M.run (A ++ [10]) n c')
      (match M.step (T ++ (A ++ [10] ++ R)) c' with | none => c' | some c' => M.run (T ++ (A ++ [10] ++ R)) n c')
    rcases step_rel C h hm hd (BlankStep.tame ht.1) with ⟨g1, _⟩ | ⟨c1, c1', es1, g1, g2, g3, g4⟩
    · exact absurd g1 hstep
    · rw [g1, g2]
      have := ht.2
      rw [g1] at this
      exact run_prefix hT hcr n g3 g4 this

end

end Ohcount.Ragel
