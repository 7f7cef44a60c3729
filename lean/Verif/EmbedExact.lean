import Verif.EmbedSolid
import Verif.RagelExact

/-!
One callback for each line, for parsers with embedded languages whose tokens do not contain line ends: the abstraction
`PA` of their machines, and what follows if a table of its values passes the check.
-/

namespace Ohcount.Ragel

/-- What is known inside a token.  `ent`: the value of `entity`; `l0`: no line ends between the last callback and `p`;
`l1`: the line of the last callback ends at `p`, and only there; `tb`: the token starts after the last callback; `t0`: as `l0`,
for `te`; `acc`: the pattern matched last; `cr`: as in `BA`; `held`: the class of the next byte, after `fhold`. -/
structure PA where
  ent : Option Ent
  l0 : Bool
  l1 : Bool
  tb : Bool
  t0 : Bool
  acc : Option Nat
  cr : Nat
  held : Option BK
  deriving DecidableEq, Repr

namespace PA

/-- Between tokens. -/
def init : PA := ⟨none, true, false, true, false, none, 0, none⟩

def cb (M : Multi) (a : PA) (l : Nat) : Option PA :=
  match a.ent with
  | none => none
  | some e => match M.op l e with
    | .ls | .code | .comment => if a.tb then some a else none
    | .nop => some a
    | .checkBlank => if a.l0 && a.tb && a.held.isNone && a.cr == 0 then some { a with tb := false, t0 := false, l1 := false } else none
    | _ => none

/-- The byte just read is of class `k`. -/
def act (M : Multi) (k : BK) (a : PA) : Act → Option (PA × Option Jump)
  | .setEnt e => some ({ a with ent := some e }, none)
  | .code | .comment => if a.tb then some (a, none) else none
  | .cb => (a.cb M 0).map (·, none)
  | .fhold _ => if a.l0 && a.tb && a.held.isNone && a.cr == 0 then some ({ a with held := some k, l1 := false }, none) else none
  | .emb (.cb l) => (a.cb M l).map (·, none)
  | .emb (.saw _) | .emb .outry => some (a, none)
  | .emb .back => if a.l0 && a.tb then some (a, some .ret) else none
  | _ => none

def acts (M : Multi) (k : BK) : PA → List Act → Option (PA × Option Jump)
  | a, [] => some (a, none)
  | a, x :: r => match a.act M k x with
    | none => none
    | some (a', some j) => some (a', some j)
    | some (a', none) => acts M k a' r

/-- The end action of pattern `k`; `l0` and `l1` are those of the end of the token. -/
def endOk (M : Multi) (use : List Nat) (m : Nat) (ent : Option Ent) (l0 l1 tb : Bool) (k : Nat) : Bool :=
  match (M.mach m).ends.getD k .none with
  | .none => l0
  | .call m' => l0 && use.contains m'
  | .cb l => match ent with
    | none => false
    | some e => match M.op l e with
      | .newline => l1 && tb
      | .ls | .code | .comment => l0 && tb
      | .nop => l0
      | _ => false
  | _ => false

def fallbackOk (M : Multi) (use : List Nat) (m : Nat) (acc : Option Nat) (l : List Act) (a : PA) : Bool :=
  a.held.isNone && l.isEmpty && match acc with
  | some k => endOk M use m a.ent a.l0 a.l1 a.tb k
  | none => match a.acc with
    | some k => endOk M use m a.ent a.t0 false a.tb k
    | none => false

/-- After reading a byte of class `k`. -/
def char (a : PA) (k : BK) (cr : Bool) (k? : Option Nat) (last : Bool) : PA :=
  let l0 := a.l0 && !BA.isNl k cr
  ⟨a.ent, l0, a.l0 && BA.isNl k cr, a.tb, if k?.isSome && !last then l0 else a.t0, if k?.isSome && !last then k? else a.acc,
    if k == .cr then (if cr then 1 else 2) else 0, none⟩

def succ (M : Multi) (use : List Nat) (m : Nat) : Succ PA := fun st acc l a _ k cr v =>
  if !(M.mach m).scanner then none
  else if ((a.cr == 1 && k == .lf) || (a.cr == 2 && k != .lf)) || (a.held.isSome && a.held != some k) then some none
  else match v with
  | none => if st then (if k == .vt then some none else none) else if a.fallbackOk M use m acc l then some none else none
  | some (as, k?, last) =>
    match acts M k (a.char k cr k? last) as with
    | none => none
    | some (_, some _) => some none
    | some (a2, none) =>
      if last then (if a2.held.isNone && endOk M use m a2.ent a2.l0 a2.l1 a2.tb (k?.getD 0) then some none else none)
      else some (some a2)

def eofOk (M : Multi) (use : List Nat) (m : Nat) : EofOk PA := fun st acc l a =>
  st || a.cr == 1 || a.cr == 2 || a.held.isSome || a.fallbackOk M use m acc l

end PA

/-- The static check of machine `m`, with its table. -/
structure PCert (M : Multi) (use : List Nat) (m : Nat) where
  dfa : Dfa (M.mach m).nfa
  tab : List (List PA)
  closed : closed dfa.rows tab PA.init (PA.succ M use m) (PA.eofOk M use m) = true

/-! ### Lines -/

/-- The callbacks `l` are, in order and one for each, for the lines up to `x`. -/
inductive Told (buf : List Byte) : List Rep → Nat → Prop
  | nil : Told buf [] 0
  | snoc {l x r} : Told buf l x → x < r.e → noEnd buf x r.e → lineEnd buf r.e = true → x ≤ r.s → r.s < r.e → Told buf (l ++ [r]) r.e

def OfLineR (x : Nat × Nat) (r : Rep) : Prop := r.e = x.2 ∧ x.1 ≤ r.s ∧ r.s < x.2

theorem Told.spec {buf : List Byte} {l : List Rep} {x : Nat} (h : Told buf l x) :
    Each OfLineR ((0 :: endsTo buf x).zip (endsTo buf x)) l ∧ (endsTo buf x).getLastD 0 = x ∧ x ≤ buf.length := by
  induction h with
  | nil =>
    refine ⟨?_, rfl, Nat.zero_le _⟩
    have : endsTo buf 0 = [] := rfl
    rw [this]; exact .nil
  | @snoc l x r h1 hx hn he hs hs2 ih =>
    rw [endsTo_snoc hx hn he]
    refine ⟨?_, by simp, lineEnd_le he⟩
    rw [zip_snoc, ih.2.1]
    exact ih.1.snoc ⟨rfl, hs, hs2⟩

theorem Told.all {buf : List Byte} {l : List Rep} {x : Nat} (h : Told buf l x)
    (hn : ∀ e, x < e → e ≤ buf.length → lineEnd buf e = false) : Each OfLineR (terminated buf) l := by
  have hs := h.spec
  have : lineEnds buf = endsTo buf x := endsTo_same buf.length hs.2.2 hn
  unfold terminated
  rw [this]
  exact hs.1

/-- No line ends after `x` and up to `y`. -/
def NoE (buf : List Byte) (x y : Nat) : Prop := ∀ e, x < e → e ≤ y → lineEnd buf e = false

theorem NoE.self (buf : List Byte) (x : Nat) : NoE buf x x := fun e h1 h2 => by omega

theorem NoE.le {buf : List Byte} {x y z : Nat} (h : NoE buf x y) (hz : z ≤ y) : NoE buf x z := fun e h1 h2 => h e h1 (by omega)

/-- The rest of a line. -/
theorem blankRest_line : ∀ (l : List Byte) (k : Nat), l.getLast? ≠ some 13 → blankRest l = some k →
    lineEnd l (k + 1) = true ∧ ∀ e, e < k + 1 → lineEnd l e = false
  | [], k, _, h => by simp [blankRest] at h
  | b :: r, k, hl, h => by
    unfold blankRest at h
    split at h
    · rename_i hb
      simp only [Option.some.injEq] at h
      subst h
      refine ⟨?_, fun e he => ?_⟩
      · simp only [lineEnd, List.getElem?_cons_zero]
        rw [hb]; rfl
      · have : e = 0 := by omega
        subst this; rfl
    · rename_i h1
      split at h
      · rename_i hb
        simp only [beq_iff_eq] at hb
        subst hb
        simp only [Option.some.injEq] at h
        cases r with
        | nil => exact absurd rfl hl
        | cons c r =>
          by_cases hc : c = 10
          · subst hc
            rw [if_pos (by rfl)] at h
            subst h
            refine ⟨rfl, fun e he => ?_⟩
            have : e = 0 ∨ e = 1 := by omega
            rcases this with rfl | rfl <;> rfl
          · rw [if_neg (by simpa using hc)] at h
            subst h
            refine ⟨?_, fun e he => ?_⟩
            · simp only [lineEnd, List.getElem?_cons_zero, List.getElem?_cons_succ]
              simpa using hc
            · have : e = 0 := by omega
              subst this; rfl
      · rename_i h2
        split at h
        · rename_i hb
          cases hx : blankRest r with
          | none => rw [hx] at h; simp at h
          | some j =>
            rw [hx] at h
            simp only [Option.map_some, Option.some.injEq] at h
            subst h
            have hne : r ≠ [] := by rintro rfl; simp [blankRest] at hx
            obtain ⟨g1, g2⟩ := blankRest_line r j (by rw [← List.getLast?_cons_of_ne_nil hne (x := b)]; exact hl) hx
            have sh : ∀ e, lineEnd (b :: r) (e + 2) = lineEnd r (e + 1) := fun e => rfl
            refine ⟨(sh j).trans g1, fun e he => ?_⟩
            match e with
            | 0 => rfl
            | 1 =>
              simp only [Bool.or_eq_true, beq_iff_eq, not_or] at h1 h2
              simp [lineEnd, h1.1, h1.2, h2]
            | e + 2 => exact (sh e).trans (g2 (e + 1) (by omega))
        · cases h

theorem lineEnd_drop (buf : List Byte) (n e : Nat) : lineEnd (buf.drop n) (e + 1) = lineEnd buf (n + (e + 1)) := by
  rw [← Nat.add_assoc]
  show (match (buf.drop n)[e]? with | none => false | some b => _ || _ || (_ && match (buf.drop n)[e + 1]? with | some c => _ | none => _)) =
    (match buf[n + e]? with | none => false | some b => _ || _ || (_ && match buf[n + e + 1]? with | some c => _ | none => _))
  rw [List.getElem?_drop, List.getElem?_drop, ← Nat.add_assoc]

theorem blankEntry_line {buf : List Byte} (hb : Plain buf) {p p' : Nat} (h : blankEntry buf p = some p') :
    lineEnd buf (p' + 1) = true ∧ noEnd buf (p + 1) (p' + 1) := by
  unfold blankEntry at h
  cases hx : blankRest (buf.drop (p + 1)) with
  | none => rw [hx] at h; simp at h
  | some k =>
    rw [hx] at h
    simp only [Option.map_some, Option.some.injEq] at h
    subst h
    have hne : buf.drop (p + 1) ≠ [] := by intro hn; rw [hn] at hx; simp [blankRest] at hx
    have hlen : p + 1 < buf.length := by
      have := List.length_pos_iff.mpr hne
      rw [List.length_drop] at this; omega
    have hl : (buf.drop (p + 1)).getLast? ≠ some 13 := by
      rw [List.getLast?_drop, if_neg (by omega)]; exact hb.2
    obtain ⟨g1, g2⟩ := blankRest_line _ _ hl hx
    rw [lineEnd_drop] at g1
    refine ⟨by rw [show k + (p + 1) + 1 = p + 1 + (k + 1) by omega]; exact g1, fun e h1 h2 => ?_⟩
    have := g2 (e - (p + 1) - 1 + 1) (by omega)
    rw [lineEnd_drop] at this
    rw [show e = p + 1 + (e - (p + 1) - 1 + 1) by omega]; exact this

/-! ### Actions -/

/-- Inside a token that starts at `ts`; `b` is the end of the last line with a callback. -/
structure PD (buf : List Byte) (b ts : Nat) (d : Data) : Prop where
  told : Told buf d.out b
  inq : d.inq = false
  ls : ∀ x, d.ls = some x → b ≤ x ∧ x ≤ ts
  fl : d.flag → d.ls ≠ none

theorem PD.deq {buf : List Byte} {b ts : Nat} {d : Data} (h : PD buf b ts d) : d.deq = d := by
  unfold Data.deq; rw [h.inq]; rfl

theorem PD.same {buf : List Byte} {b ts : Nat} {d : Data} (h : PD buf b ts d) (d' : Data) (h1 : d'.out = d.out) (h2 : d'.inq = d.inq)
    (h3 : d'.ls = d.ls) (h4 : d'.flag → d.flag) : PD buf b ts d' :=
  ⟨h1 ▸ h.told, h2.trans h.inq, h3 ▸ h.ls, fun hf => h3 ▸ h.fl (h4 hf)⟩

theorem PD.setLs {buf : List Byte} {b ts : Nat} {d : Data} (h : PD buf b ts d) (hb : b ≤ ts) (d' : Data) (h1 : d'.out = d.out)
    (h2 : d'.inq = d.inq) (h3 : d'.ls = if d.ls.isNone then some ts else d.ls) : PD buf b ts d' := by
  refine ⟨h1 ▸ h.told, h2.trans h.inq, fun x hx => ?_, fun _ => ?_⟩
  · rw [h3] at hx
    split at hx
    · injection hx with hx; subst hx; exact ⟨hb, Nat.le_refl _⟩
    · exact h.ls x hx
  · rw [h3]
    split
    · nofun
    · rename_i hn; simpa using hn

theorem PD.actCode {buf : List Byte} {b ts : Nat} {d : Data} (h : PD buf b ts d) (hb : b ≤ ts) : PD buf b ts (d.actCode ts) := by
  refine h.setLs hb _ rfl rfl ?_
  show (if (!d.lcc && d.ls.isNone) = true then some ts else d.ls) = _
  cases hl : d.lcc with
  | false => rfl
  | true =>
    have := h.fl (.inl hl)
    cases hx : d.ls with
    | none => exact absurd hx this
    | some x => rfl

theorem PD.actComment {buf : List Byte} {b ts : Nat} {d : Data} (h : PD buf b ts d) (hb : b ≤ ts) : PD buf b ts (d.actComment ts) := by
  unfold Data.actComment
  split
  · exact h
  · exact h.setLs hb _ rfl rfl rfl

/-- A line ends. -/
theorem PD.newline {buf : List Byte} {b ts te : Nat} {d : Data} (h : PD buf b ts d) (hb : b ≤ ts) (ht : ts < te) (hn : noEnd buf b te)
    (he : lineEnd buf te = true) : PD buf te ts (d.stdNewline ts te) ∧ (d.stdNewline ts te).ls = none := by
  have haft : Data.after te d.ls = true := by
    unfold Data.after
    split
    · rfl
    · rename_i x hx
      have := h.ls x hx
      simpa using (by omega : x < te)
  have key : ∃ k s, (d.stdNewline ts te).out = d.out ++ [⟨k, s, te⟩] ∧ b ≤ s ∧ s < te ∧ (d.stdNewline ts te).inq = false := by
    unfold Data.stdNewline
    rw [h.deq]
    dsimp only
    rw [haft]
    simp only [if_true]
    have flg : ∀ k, d.flag → ∃ s, (d.emit false k d.ls te).out = d.out ++ [⟨k, s, te⟩] ∧ (d.emit false k d.ls te).inq = d.inq ∧
        b ≤ s ∧ s < te := by
      intro k hf
      cases hx : d.ls with
      | none => exact absurd hx (h.fl hf)
      | some x =>
        obtain ⟨g1, g2⟩ := h.ls x hx
        exact ⟨x, rfl, rfl, g1, by omega⟩
    split
    · rename_i hl
      obtain ⟨s, e1, e4, e2, e3⟩ := flg .lcode (.inl hl)
      exact ⟨_, _, e1, e2, e3, e4.trans h.inq⟩
    · split
      · rename_i hl
        obtain ⟨s, e1, e4, e2, e3⟩ := flg .lcomment (.inr hl)
        exact ⟨_, _, e1, e2, e3, e4.trans h.inq⟩
      · exact ⟨.lblank, ts, rfl, hb, ht, h.inq⟩
  obtain ⟨k, s, e1, e2, e3, e4⟩ := key
  refine ⟨⟨?_, e4, fun x hx => ?_, fun hf => ?_⟩, rfl⟩
  · rw [e1]
    exact Told.snoc (r := ⟨k, s, te⟩) h.told (by show b < te; omega) hn he e2 e3
  · cases hx
  · rcases hf with hf | hf <;> cases hf

/-- During the actions of a transition on the byte at `p`. -/
structure PI (buf : List Byte) (ts p b : Nat) (a : PA) (s : ES) : Prop where
  d : PD buf b ts s.x.d
  ent : ∀ e, a.ent = some e → s.x.d.ent = e
  tb : a.tb = true → b ≤ ts
  l0 : a.l0 = true → b ≤ s.np ∧ NoE buf b s.np ∧ NoE buf b (ts + 1)
  l1 : a.l1 = true → noEnd buf b s.np ∧ lineEnd buf s.np = true
  t0 : a.t0 = true → b ≤ s.te ∧ NoE buf b s.te
  tn : ts < buf.length
  np : s.np ≤ buf.length
  le : ts ≤ s.np
  lt : a.held = none → ts < s.np
  hp : a.tb = true → a.held = none → s.np = p + 1
  held : ∀ k, a.held = some k → ∃ c, buf[s.np]? = some c ∧ bk c.toNat = k
  acc : a.acc.isSome = true → ts < s.te ∧ s.te ≤ buf.length
  cr : BCr buf s.np a.cr

theorem PI.same {buf : List Byte} {ts p b : Nat} {a : PA} {s : ES} (h : PI buf ts p b a s) (x' : EData) (hd : PD buf b ts x'.d)
    (he : x'.d.ent = s.x.d.ent) : PI buf ts p b a { s with x := x' } :=
  ⟨hd, fun e ha => he.trans (h.ent e ha), h.tb, h.l0, h.l1, h.t0, h.tn, h.np, h.le, h.lt, h.hp, h.held, h.acc, h.cr⟩

theorem PI.cb {M : Multi} {buf : List Byte} (hb : Plain buf) {ts p b l : Nat} {a a' : PA} {s : ES} (h : PI buf ts p b a s) (hj : s.jump = none)
    (ha : a.cb M l = some a') : (∃ b', PI buf ts p b' a' (M.callback buf l ts s)) ∧ (M.callback buf l ts s).jump = none ∧ a'.acc = a.acc := by
  unfold PA.cb at ha
  split at ha
  · cases ha
  · rename_i e he
    have hd := h.ent e he
    cases ho : M.op l e with
    | ls =>
      rw [ho] at ha; dsimp only at ha
      split at ha
      · rename_i ht; injection ha with ha; subst ha
        have : M.callback buf l ts s = { s with x := s.x.upd l (s.x.d.mLs ts) } := by simp only [Multi.callback, hd, ho]
        rw [this]
        refine ⟨⟨b, h.same _ (h.d.setLs (h.tb ht) _ ?_ ?_ ?_) (mLs_ent _ _)⟩, hj, rfl⟩ <;>
          simp only [EData.upd, Data.mLs, h.d.deq]
      · cases ha
    | code =>
      rw [ho] at ha; dsimp only at ha
      split at ha
      · rename_i ht; injection ha with ha; subst ha
        have : M.callback buf l ts s = { s with x := s.x.upd l (s.x.d.mCode ts) } := by simp only [Multi.callback, hd, ho]
        rw [this]
        refine ⟨⟨b, h.same _ ?_ (mCode_ent _ _)⟩, hj, rfl⟩
        show PD buf b ts (s.x.d.mCode ts)
        unfold Data.mCode
        rw [h.d.deq]
        exact h.d.actCode (h.tb ht)
      · cases ha
    | comment =>
      rw [ho] at ha; dsimp only at ha
      split at ha
      · rename_i ht; injection ha with ha; subst ha
        have : M.callback buf l ts s = { s with x := s.x.upd l (s.x.d.mComment ts) } := by simp only [Multi.callback, hd, ho]
        rw [this]
        refine ⟨⟨b, h.same _ ?_ (mComment_ent _ _)⟩, hj, rfl⟩
        show PD buf b ts (s.x.d.mComment ts)
        unfold Data.mComment
        rw [h.d.deq]
        exact h.d.actComment (h.tb ht)
      · cases ha
    | nop =>
      rw [ho] at ha; dsimp only at ha
      injection ha with ha; subst ha
      have : M.callback buf l ts s = s := by simp only [Multi.callback, hd, ho]
      rw [this]
      exact ⟨⟨b, h⟩, hj, rfl⟩
    | checkBlank =>
      rw [ho] at ha; dsimp only at ha
      split at ha
      · rename_i ht; injection ha with ha; subst ha
        simp only [Bool.and_eq_true, Option.isNone_iff_eq_none] at ht
        obtain ⟨⟨⟨t1, t2⟩, t3⟩, t4⟩ := ht
        have hcr : ∀ y, BCr buf y a.cr := fun y => by rw [beq_iff_eq.mp t4]; exact ⟨by nofun, by nofun⟩
        obtain ⟨k1, k2, k3⟩ := h.l0 t1
        have hlt := h.lt t3
        cases hbe : blankEntry buf (s.np - 1) with
        | none =>
          have : M.callback buf l ts s = s := by simp only [Multi.callback, hd, ho, hbe]
          rw [this]
          exact ⟨⟨b, h.d, h.ent, (by nofun), h.l0, (by nofun), (by nofun), h.tn, h.np, h.le, h.lt, (by nofun), h.held, h.acc, h.cr⟩, hj, rfl⟩
        | some p' =>
          have : M.callback buf l ts s = { s with x := s.x.upd l (s.x.d.stdNewline ts (p' + 1)), np := p' + 1, te := p' + 1 } := by
            simp only [Multi.callback, hd, ho, hbe]
          rw [this]
          obtain ⟨s1, s2⟩ := blankEntry_spec hbe
          obtain ⟨l1, l2⟩ := blankEntry_line hb hbe
          rw [show s.np - 1 + 1 = s.np by omega] at l2
          obtain ⟨g1, g2⟩ := h.d.newline (te := p' + 1) (h.tb t2) (by omega) (fun e h1 h2 => by
            by_cases hx : e ≤ s.np
            · exact k2 e h1 hx
            · exact l2 e (by omega) h2) l1
          refine ⟨⟨p' + 1, g1, fun e' he' => (stdNewline_ent _ _ _).trans (h.ent e' he'), (by nofun), fun _ => ⟨Nat.le_refl _, NoE.self _ _, ?_⟩,
            (by nofun), (by nofun), h.tn, (by show p' + 1 ≤ _; omega), (by show ts ≤ p' + 1; omega), (fun _ => by show ts < p' + 1; omega), (by nofun), ?_, fun _ => ⟨?_, ?_⟩, hcr _⟩, hj, rfl⟩
          · intro e h1 h2; omega
          · intro k hk; rw [t3] at hk; cases hk
          · show ts < p' + 1; omega
          · show p' + 1 ≤ _; omega
      · cases ha
    | newline => rw [ho] at ha; cases ha
    | internalNewline => rw [ho] at ha; cases ha
    | embNewline => rw [ho] at ha; cases ha
    | embInternalNewline => rw [ho] at ha; cases ha

theorem PI.act {M : Multi} {buf : List Byte} (hb : Plain buf) {ts p b : Nat} {c : Byte} (hc : buf[p]? = some c) {a a' : PA} {s : ES} {x : Act}
    {j : Option Jump} (h : PI buf ts p b a s) (hj : s.jump = none) (ha : a.act M (bk c.toNat) x = some (a', j)) :
    (M.act buf ts s x).jump = j ∧ a'.acc = a.acc ∧
    match j with
    | none => ∃ b', PI buf ts p b' a' (M.act buf ts s x)
    | some j => j = .ret ∧ ∃ b', PD buf b' ts (M.act buf ts s x).x.d ∧ (M.act buf ts s x).np = ts + 1 ∧ b' ≤ ts ∧ NoE buf b' (ts + 1) ∧ ts < buf.length := by
  have hcb : ∀ l, (a.cb M l).map (·, none) = some (a', j) → (M.callback buf l ts s).jump = j ∧ a'.acc = a.acc ∧
      match j with
      | none => ∃ b', PI buf ts p b' a' (M.callback buf l ts s)
      | some j => j = .ret ∧ ∃ b', PD buf b' ts (M.callback buf l ts s).x.d ∧ (M.callback buf l ts s).np = ts + 1 ∧ b' ≤ ts ∧ NoE buf b' (ts + 1) ∧ ts < buf.length := by
    intro l hx
    cases hy : a.cb M l with
    | none => rw [hy] at hx; cases hx
    | some a1 =>
      rw [hy] at hx
      simp only [Option.map_some, Option.some.injEq, Prod.mk.injEq] at hx
      obtain ⟨rfl, rfl⟩ := hx
      obtain ⟨g1, g2, g3⟩ := h.cb hb hj hy
      exact ⟨g2, g3, g1⟩
  cases x with
  | setEnt e =>
    simp only [PA.act, Option.some.injEq, Prod.mk.injEq] at ha; obtain ⟨rfl, rfl⟩ := ha
    exact ⟨hj, rfl, b, h.d.same _ rfl rfl rfl id, (fun e' he => by injection he), h.tb, h.l0, h.l1, h.t0, h.tn, h.np, h.le, h.lt, h.hp, h.held, h.acc, h.cr⟩
  | code =>
    simp only [PA.act] at ha
    split at ha
    · rename_i ht
      simp only [Option.some.injEq, Prod.mk.injEq] at ha; obtain ⟨rfl, rfl⟩ := ha
      exact ⟨hj, rfl, b, h.same { s.x with d := s.x.d.actCode ts } (h.d.actCode (h.tb ht)) rfl⟩
    · cases ha
  | comment =>
    simp only [PA.act] at ha
    split at ha
    · rename_i ht
      simp only [Option.some.injEq, Prod.mk.injEq] at ha; obtain ⟨rfl, rfl⟩ := ha
      exact ⟨hj, rfl, b, h.same { s.x with d := s.x.d.actComment ts } (h.d.actComment (h.tb ht)) (actComment_ent _ _)⟩
    · cases ha
  | enqueue => cases ha
  | commit => cases ha
  | nestRes => cases ha
  | nestInc => cases ha
  | nestDec => cases ha
  | cb => exact hcb 0 ha
  | fhold i =>
    simp only [PA.act] at ha
    split at ha
    · rename_i ht
      simp only [Option.some.injEq, Prod.mk.injEq] at ha; obtain ⟨rfl, rfl⟩ := ha
      simp only [Bool.and_eq_true, Option.isNone_iff_eq_none] at ht
      obtain ⟨⟨⟨t1, t2⟩, t3⟩, t4⟩ := ht
      have hcr : ∀ y, BCr buf y a.cr := fun y => by rw [beq_iff_eq.mp t4]; exact ⟨by nofun, by nofun⟩
      have hnp := h.hp t2 t3
      have hlt := h.lt t3
      obtain ⟨k1, k2, k3⟩ := h.l0 t1
      have hbt := h.tb t2
      have hn := h.np
      refine ⟨hj, rfl, b, h.d, h.ent, h.tb, fun _ => ⟨?_, ?_, k3⟩, (by nofun), h.t0, h.tn, ?_, ?_, (by nofun), (by nofun), ?_, h.acc, hcr _⟩
      · show b ≤ s.np - 1; omega
      · exact k2.le (by show s.np - 1 ≤ s.np; omega)
      · show s.np - 1 ≤ _; omega
      · show ts ≤ s.np - 1; omega
      · intro k hk
        injection hk with hk
        subst hk
        refine ⟨c, ?_, rfl⟩
        show buf[s.np - 1]? = some c
        rw [hnp]; exact hc
    · cases ha
  | emb e =>
    cases e with
    | cb l => exact hcb l ha
    | outry =>
      simp only [PA.act, Option.some.injEq, Prod.mk.injEq] at ha; obtain ⟨rfl, rfl⟩ := ha
      refine ⟨hj, rfl, b, h.same s.x.outry ?_ ?_⟩ <;> unfold EData.outry <;> split
      · exact h.d
      · exact h.d
      · rfl
      · rfl
    | saw l =>
      simp only [PA.act, Option.some.injEq, Prod.mk.injEq] at ha; obtain ⟨rfl, rfl⟩ := ha
      exact ⟨hj, rfl, b, h.same (s.x.saw l) (h.d.same _ rfl rfl rfl (fun hf => by rcases hf with hf | hf <;> cases hf)) rfl⟩
    | back =>
      simp only [PA.act] at ha
      split at ha
      · rename_i ht
        simp only [Option.some.injEq, Prod.mk.injEq] at ha; obtain ⟨rfl, rfl⟩ := ha
        rw [Bool.and_eq_true] at ht
        exact ⟨rfl, rfl, rfl, b, h.d, rfl, h.tb ht.2, (h.l0 ht.1).2.2, h.tn⟩
      · cases ha
    | sawCall l m => cases ha
    | ret => cases ha
    | goto m => cases ha
    | indInc => cases ha
    | indRes => cases ha
    | indSet => cases ha
    | eofCommit => cases ha

theorem PI.acts {M : Multi} {buf : List Byte} (hb : Plain buf) {ts p : Nat} {c : Byte} (hc : buf[p]? = some c) :
    ∀ {l : List Act} {a a' : PA} {s : ES} {b : Nat} {j : Option Jump},
    PI buf ts p b a s → s.jump = none → a.acts M (bk c.toNat) l = some (a', j) →
    (M.acts buf ts s l).jump = j ∧ a'.acc = a.acc ∧
    match j with
    | none => ∃ b', PI buf ts p b' a' (M.acts buf ts s l)
    | some j => j = .ret ∧ ∃ b', PD buf b' ts (M.acts buf ts s l).x.d ∧ (M.acts buf ts s l).np = ts + 1 ∧ b' ≤ ts ∧ NoE buf b' (ts + 1) ∧ ts < buf.length
  | [], a, a', s, b, j, h, hj, ha => by
    simp only [PA.acts, Option.some.injEq, Prod.mk.injEq] at ha; obtain ⟨rfl, rfl⟩ := ha
    exact ⟨hj, rfl, b, h⟩
  | x :: r, a, a', s, b, j, h, hj, ha => by
    simp only [PA.acts] at ha
    simp only [Multi.acts]
    cases hx : a.act M (bk c.toNat) x with
    | none => rw [hx] at ha; cases ha
    | some y =>
      obtain ⟨a1, j1⟩ := y
      rw [hx] at ha
      obtain ⟨g1, g2, g3⟩ := h.act hb hc hj hx
      cases j1 with
      | some j1 =>
        simp only [Option.some.injEq, Prod.mk.injEq] at ha; obtain ⟨rfl, rfl⟩ := ha
        rw [if_pos (by rw [g1]; rfl)]
        exact ⟨g1, g2, g3⟩
      | none =>
        rw [if_neg (by rw [g1]; simp)]
        obtain ⟨b', g3⟩ := g3
        obtain ⟨k1, k2, k3⟩ := PI.acts hb hc g3 g1 ha
        exact ⟨k1, k2.trans g2, k3⟩

/-! ### Runs -/

/-- Between tokens, at `p`. -/
structure PBase (buf : List Byte) (b p : Nat) (d : Data) : Prop where
  told : Told buf d.out b
  bp : b ≤ p
  pn : p ≤ buf.length
  ne : NoE buf b p
  inq : d.inq = false
  ls : ∀ x, d.ls = some x → b ≤ x ∧ x < p
  fl : d.flag → d.ls ≠ none

theorem PD.base {buf : List Byte} {b ts p : Nat} {d : Data} (h : PD buf b ts d) (hb : b ≤ p) (hn : NoE buf b p) (ht : ts < p) (hp : p ≤ buf.length) :
    PBase buf b p d :=
  ⟨h.told, hb, hp, hn, h.inq, fun x hx => ⟨(h.ls x hx).1, by have := (h.ls x hx).2; omega⟩, h.fl⟩

abbrev PCerts (M : Multi) (use : List Nat) := ∀ m ∈ use, PCert M use m

section
variable {M : Multi} {use : List Nat} (C : PCerts M use)

def PIn (m : Nat) (q : State) (a : PA) : Prop := ∃ h : m ∈ use, InTab (C m h).dfa.rows (C m h).tab q a

theorem PIn.init {m : Nat} (h : m ∈ use) : PIn C m [] PA.init := ⟨h, (closed_spec (C m h).dfa (C m h).closed).1⟩

/-- Where a token was matched last, and what was read last. -/
structure PTok (buf : List Byte) (c : ECfg) (a : PA) (b : Nat) : Prop where
  i : PI buf c.ts (c.p - 1) b a { x := c.x, np := c.p, te := c.te }
  acc : c.acc = a.acc

/-- Between two steps. -/
inductive PGood (buf : List Byte) (c : ECfg) : Prop
  | bad (h : c.bad = true)
  | start (hm : c.m ∈ use) (hq : c.q = []) (hs : ∀ y ∈ c.stack, y.1 ∈ use ∧ y.2 = []) (b : Nat) (h : PBase buf b c.p c.x.d)
  | tok (hq : c.q ≠ []) (hs : ∀ y ∈ c.stack, y.1 ∈ use ∧ y.2 = []) (a : PA) (hm : PIn C c.m c.q a) (b : Nat) (h : PTok buf c a b)

/-- A jump. -/
theorem goOn_exact {buf : List Byte} {c : ECfg} {q : State} {s : ES} {acc : Option Nat} {j : Jump} {b : Nat} (hj : s.jump = some j)
    (ht : (∃ m ∈ use, j = .call m ∧ q = [] ∧ c.m ∈ use) ∨ j = .ret) (hs : ∀ y ∈ c.stack, y.1 ∈ use ∧ y.2 = []) (h : PBase buf b s.np s.x.d) :
    PGood C buf (c.goOn q s acc) := by
  unfold ECfg.goOn
  rw [hj]
  rcases ht with ⟨m, hm, rfl, rfl, hcm⟩ | rfl
  · dsimp only
    split
    · refine .start hm rfl (fun y hy => ?_) b h
      rcases List.mem_cons.mp hy with rfl | hy
      · exact ⟨hcm, rfl⟩
      · exact hs y hy
    · exact .bad rfl
  · dsimp only
    split
    · exact .bad rfl
    · rename_i m q' r hst
      rw [hst] at hs
      obtain ⟨h1, h2⟩ := hs (m, q') (List.mem_cons_self ..)
      exact .start h1 h2 (fun y hy => hs y (List.mem_cons_of_mem _ hy)) b h

/-- The end of a token. -/
theorem finish_exact {buf : List Byte} {c : ECfg} {ts te k b : Nat} {x : EData} {ent : Option Ent} {l0 l1 tb : Bool}
    (hm : c.m ∈ use) (hs : ∀ y ∈ c.stack, y.1 ∈ use ∧ y.2 = []) (h : PD buf b ts x.d) (he : ∀ e, ent = some e → x.d.ent = e)
    (hb : tb = true → b ≤ ts) (h0 : l0 = true → b ≤ te ∧ NoE buf b te) (h1 : l1 = true → noEnd buf b te ∧ lineEnd buf te = true)
    (ht : ts < te) (hn : te ≤ buf.length) (hk : PA.endOk M use c.m ent l0 l1 tb k = true) : PGood C buf (M.finish buf c ts x te k) := by
  unfold PA.endOk at hk
  unfold Multi.finish
  generalize (M.mach c.m).ends.getD k .none = en at hk ⊢
  have plain : ∀ (x' : EData), PD buf b ts x'.d → l0 = true →
      PGood C buf (({ c with ts := ts } : ECfg).goOn [] { x := x', np := te, te := te } none) := fun x' hx' hl => by
    exact .start hm rfl hs b (hx'.base (h0 hl).1 (h0 hl).2 ht hn)
  cases en with
  | none => exact plain x h hk
  | call m =>
    rw [Bool.and_eq_true] at hk
    refine goOn_exact C (j := .call m) (b := b) rfl (.inl ⟨m, by simpa using hk.2, rfl, rfl, hm⟩) hs ?_
    exact h.base (h0 hk.1).1 (h0 hk.1).2 ht hn
  | goto m => cases hk
  | ecb l => cases hk
  | cb l =>
    dsimp only at hk
    split at hk
    · cases hk
    · rename_i e
      have hd := he e rfl
      cases ho : M.op l e with
      | ls =>
        rw [ho] at hk; simp only [Bool.and_eq_true] at hk
        simp only [Multi.runEnd, Multi.callback, hd, ho]
        refine plain _ (h.setLs (hb hk.2) _ ?_ ?_ ?_) hk.1 <;> simp only [EData.upd, Data.mLs, h.deq]
      | code =>
        rw [ho] at hk; simp only [Bool.and_eq_true] at hk
        simp only [Multi.runEnd, Multi.callback, hd, ho]
        refine plain _ ?_ hk.1
        show PD buf b ts (x.d.mCode ts)
        unfold Data.mCode
        rw [h.deq]; exact h.actCode (hb hk.2)
      | comment =>
        rw [ho] at hk; simp only [Bool.and_eq_true] at hk
        simp only [Multi.runEnd, Multi.callback, hd, ho]
        refine plain _ ?_ hk.1
        show PD buf b ts (x.d.mComment ts)
        unfold Data.mComment
        rw [h.deq]; exact h.actComment (hb hk.2)
      | nop =>
        rw [ho] at hk
        simp only [Multi.runEnd, Multi.callback, hd, ho]
        exact plain x h hk
      | newline =>
        rw [ho] at hk; simp only [Bool.and_eq_true] at hk
        simp only [Multi.runEnd, Multi.callback, hd, ho]
        obtain ⟨g1, g2⟩ := h1 hk.1
        obtain ⟨g3, _⟩ := h.newline (hb hk.2) ht g1 g2
        exact .start hm rfl hs te (g3.base (Nat.le_refl _) (NoE.self _ _) ht hn)
      | checkBlank => rw [ho] at hk; cases hk
      | internalNewline => rw [ho] at hk; cases hk
      | embNewline => rw [ho] at hk; cases hk
      | embInternalNewline => rw [ho] at hk; cases hk

theorem efallback_exact {buf : List Byte} {c : ECfg} {a : PA} {b : Nat} (hm : c.m ∈ use) (hs : ∀ y ∈ c.stack, y.1 ∈ use ∧ y.2 = [])
    (h : PTok buf c a b)
    (hf : a.fallbackOk M use c.m ((M.mach c.m).nfa.accepts c.q) ((M.mach c.m).nfa.leaveActs c.q) = true) :
    ∃ c', M.fallback buf c = some c' ∧ PGood C buf c' := by
  unfold PA.fallbackOk at hf
  rw [Bool.and_eq_true, Bool.and_eq_true] at hf
  obtain ⟨⟨hh, hl⟩, hf⟩ := hf
  have hh : a.held = none := by simpa using hh
  have hl' : (M.mach c.m).nfa.leaveActs c.q = [] := by simpa using hl
  unfold Multi.fallback
  dsimp only
  rw [hl']
  cases hk : (M.mach c.m).nfa.accepts c.q with
  | some k =>
    rw [hk] at hf
    refine ⟨_, rfl, ?_⟩
    exact finish_exact C hm hs h.i.d h.i.ent h.i.tb (fun g => ⟨(h.i.l0 g).1, (h.i.l0 g).2.1⟩) h.i.l1 (h.i.lt hh) h.i.np hf
  | none =>
    rw [hk] at hf
    dsimp only at hf ⊢
    rw [h.acc]
    cases hc : a.acc with
    | none => rw [hc] at hf; cases hf
    | some k =>
      rw [hc] at hf
      obtain ⟨g1, g2⟩ := h.i.acc (by rw [hc]; rfl)
      exact ⟨_, rfl, finish_exact C hm hs h.i.d h.i.ent h.i.tb h.i.t0 (by nofun) g1 g2 hf⟩

/-- Reading a byte. -/
theorem PI.char {buf : List Byte} {ts te p b : Nat} {x : EData} {a : PA} {c : Byte} {k? : Option Nat} {last : Bool} {te' : Nat}
    (hc : buf[p]? = some c) (hd : PD buf b ts x.d) (hent : ∀ e, a.ent = some e → x.d.ent = e) (htb : a.tb = true → b ≤ ts)
    (hl0 : a.l0 = true → b ≤ p ∧ NoE buf b p) (ht0 : a.t0 = true → b ≤ te ∧ NoE buf b te)
    (htp : ts ≤ p) (hacc : a.acc.isSome = true → ts < te ∧ te ≤ buf.length) (hte : (if (k?.isSome && !last) = true then p + 1 else te) = te')
    (dd : Data) :
    PI buf ts p b (a.char (bk c.toNat) (c.toNat == 13 && condAt buf p dd .crAlone) k? last) { x := x, np := p + 1, te := te' } := by
  have hpn : p < buf.length := (List.getElem?_eq_some_iff.mp hc).1
  have hle := lineEnd_bk hc dd
  have no : a.l0 = true → BA.isNl (bk c.toNat) (c.toNat == 13 && condAt buf p dd .crAlone) = false →
      b ≤ p + 1 ∧ NoE buf b (p + 1) ∧ NoE buf b (ts + 1) := by
    intro g1 g2
    obtain ⟨k1, k2⟩ := hl0 g1
    have : NoE buf b (p + 1) := by
      intro e h1 h2
      by_cases hx : e ≤ p
      · exact k2 e h1 hx
      · have : e = p + 1 := by omega
        rw [this, hle]; exact g2
    exact ⟨by omega, this, this.le (by omega)⟩
  refine ⟨hd, hent, htb, ?_, ?_, ?_, by omega, hpn, (by show ts ≤ p + 1; omega), fun _ => by show ts < p + 1; omega, fun _ _ => rfl, (by nofun), ?_, ?_⟩
  · intro g
    simp only [PA.char, Bool.and_eq_true, Bool.not_eq_true'] at g
    exact no g.1 g.2
  · intro g
    simp only [PA.char, Bool.and_eq_true] at g
    refine ⟨fun e h1 h2 => (hl0 g.1).2 e h1 (by have : e < p + 1 := h2; omega), ?_⟩
    show lineEnd buf (p + 1) = true
    rw [hle]; exact g.2
  · intro g
    dsimp only [PA.char] at g ⊢
    subst hte
    split
    · rename_i hk
      rw [if_pos hk] at g
      simp only [Bool.and_eq_true, Bool.not_eq_true'] at g
      obtain ⟨k1, k2, _⟩ := no g.1 g.2
      exact ⟨k1, k2⟩
    · rename_i hk
      rw [if_neg hk] at g
      exact ht0 g
  · intro g
    dsimp only [PA.char] at g ⊢
    subst hte
    split
    · exact ⟨by omega, by omega⟩
    · rename_i hk
      rw [if_neg hk] at g
      exact hacc g
  · dsimp only [PA.char]
    by_cases hk : bk c.toNat = .cr
    · have hc13 := bk_eq_cr c hk
      subst hc13
      have hx : (((13 : Byte).toNat == 13) && condAt buf p dd .crAlone) = condAt buf p dd .crAlone := rfl
      rw [hx]
      have hy : ((bk (13 : Byte).toNat) == BK.cr) = true := rfl
      rw [hy, if_pos rfl]
      have key : ∀ o : Option Byte, buf[p + 1]? = o → BCr buf (p + 1) (if (match o with | some b => b != 10 | none => false) = true then 1 else 2) := by
        intro o hn
        cases o with
        | none => exact ⟨by nofun, fun _ => ⟨by omega, hc, .inl hn⟩⟩
        | some c' =>
          dsimp only
          by_cases h10 : c' = 10
          · subst h10; exact ⟨by nofun, fun _ => ⟨by omega, hc, .inr hn⟩⟩
          · rw [if_pos (by simpa using h10)]
            exact ⟨fun _ => ⟨c', hn, h10⟩, by nofun⟩
      exact key _ rfl
    · rw [if_neg (by simpa using hk)]
      exact ⟨by nofun, by nofun⟩

theorem PBase.pd {buf : List Byte} {b p : Nat} {d : Data} (h : PBase buf b p d) : PD buf b p d :=
  ⟨h.told, h.inq, fun x hx => ⟨(h.ls x hx).1, Nat.le_of_lt (h.ls x hx).2⟩, h.fl⟩

/-- What holds when a byte is read, be it the first of a token or not. -/
structure PRead (buf : List Byte) (c : ECfg) (ts : Nat) (a : PA) (b : Nat) : Prop where
  hm : PIn C c.m c.q a
  d : PD buf b ts c.x.d
  ent : ∀ e, a.ent = some e → c.x.d.ent = e
  tb : a.tb = true → b ≤ ts
  l0 : a.l0 = true → b ≤ c.p ∧ NoE buf b c.p
  t0 : a.t0 = true → b ≤ c.te ∧ NoE buf b c.te
  tp : ts ≤ c.p
  acc : a.acc.isSome = true → ts < c.te ∧ c.te ≤ buf.length
  cr : BCr buf c.p a.cr
  held : ∀ k, a.held = some k → ∃ c', buf[c.p]? = some c' ∧ bk c'.toNat = k
  macc : (if c.q.isEmpty then none else c.acc) = a.acc

theorem pheld_prune {buf : List Byte} {p : Nat} {held : Option BK} {b : Byte} (h : ∀ k, held = some k → ∃ c', buf[p]? = some c' ∧ bk c'.toNat = k)
    (hb : buf[p]? = some b) : (held.isSome && held != some (bk b.toNat)) = false := by
  cases hx : held with
  | none => rfl
  | some k =>
    obtain ⟨c', h1, h2⟩ := h k hx
    rw [hb] at h1
    injection h1 with h1
    subst h1
    rw [h2]; simp

theorem pread_exact {buf : List Byte} (hb : Plain buf) {c : ECfg} {ts b : Nat} {a : PA} {ch : Byte} {q' : State} {as : List Act}
    (hs : ∀ y ∈ c.stack, y.1 ∈ use ∧ y.2 = []) (h : PRead C buf c ts a b) (hc : buf[c.p]? = some ch)
    (hts : (if ((M.mach c.m).scanner && c.q.isEmpty) = true then c.p else c.ts) = ts)
    (hd : (M.mach c.m).nfa.delta c.q ch.toNat (condAt buf c.p c.x.d) = some (q', as)) (hbad : c.bad = false) :
    ∃ c', M.step buf c = some c' ∧ PGood C buf c' := by
  obtain ⟨hm, hT⟩ := h.hm
  obtain ⟨_, hcl⟩ := (closed_spec (C c.m hm).dfa (C c.m hm).closed).2 _ _ hT
  obtain ⟨bb, _, r, hr, hy⟩ := hcl ch (condAt buf c.p c.x.d)
  rw [hd] at hr hy
  simp only [view, Option.map_some, PA.succ, cr_prune h.cr hc, pheld_prune h.held hc, Bool.or_self, Bool.false_eq_true, if_false] at hr
  split at hr
  · cases hr
  rename_i hsc
  have hsc : (M.mach c.m).scanner = true := by simpa using hsc
  unfold Multi.step
  rw [if_neg (by rw [hbad]; decide)]
  dsimp only
  rw [hc]
  simp only [Option.bind_some]
  rw [hd, hts]
  simp only [hsc, if_true, Bool.true_and]
  generalize hk? : (M.mach c.m).nfa.accepts q' = k? at hr ⊢
  generalize hla : (M.mach c.m).nfa.isLast q' = last at hr ⊢
  have hI := PI.char (k? := k?) (last := last) hc h.d h.ent h.tb h.l0 h.t0 h.tp h.acc rfl c.x.d
  generalize hte : (if (k?.isSome && !last) = true then c.p + 1 else c.te) = te at hI ⊢
  cases hacts : PA.acts M (bk ch.toNat) (a.char (bk ch.toNat) (ch.toNat == 13 && condAt buf c.p c.x.d .crAlone) k? last) as with
  | none => rw [hacts] at hr; cases hr
  | some v =>
    obtain ⟨a2, j⟩ := v
    rw [hacts] at hr
    obtain ⟨gj, gacc, g⟩ := hI.acts hb hc rfl hacts
    generalize M.acts buf ts { x := c.x, np := c.p + 1, te := te } as = s at gj g ⊢
    cases j with
    | some j =>
      obtain ⟨rfl, b', g1, g2, g3, g4, g5⟩ := g
      rw [if_pos (by rw [gj]; rfl)]
      refine ⟨_, rfl, goOn_exact C (b := b') gj (.inr rfl) hs ?_⟩
      rw [g2]
      exact g1.base (by omega) g4 (by omega) (by omega)
    | none =>
      obtain ⟨b', g⟩ := g
      rw [if_neg (by rw [gj]; nofun)]
      dsimp only at hr
      cases last with
      | true =>
        simp only [if_true] at hr ⊢
        split at hr
        · rename_i hk
          rw [Bool.and_eq_true] at hk
          have hh : a2.held = none := by simpa using hk.1
          exact ⟨_, rfl, finish_exact C hm hs g.d g.ent g.tb (fun x => ⟨(g.l0 x).1, (g.l0 x).2.1⟩) g.l1 (g.lt hh) g.np hk.2⟩
        · cases hr
      | false =>
        simp only [Bool.false_eq_true, if_false, Option.some.injEq] at hr ⊢
        obtain ⟨q2, as2, e1, _, hne, hT2⟩ := hy _ hr.symm
        simp only [Option.some.injEq, Prod.mk.injEq] at e1
        obtain ⟨rfl, rfl⟩ := e1
        refine ⟨_, rfl, ?_⟩
        unfold ECfg.goOn
        rw [gj]
        refine .tok hne hs a2 ⟨hm, hT2⟩ b' ⟨?_, ?_⟩
        · exact ⟨g.d, g.ent, g.tb, g.l0, g.l1, g.t0, g.tn, g.np, g.le, g.lt, fun _ x => by have := g.lt x; show s.np = s.np - 1 + 1; omega,
            g.held, g.acc, g.cr⟩
        · rw [gacc]
          dsimp only [PA.char]
          rw [Bool.not_false, Bool.and_true, ← h.macc]

/-- A step, or the end. -/
theorem estep_exact {buf : List Byte} (hb : Plain buf) {c : ECfg} (h : PGood C buf c) (hbad : c.bad = false) :
    (∃ c', M.step buf c = some c' ∧ PGood C buf c') ∨ (M.step buf c = none ∧ ∃ b, PBase buf b buf.length c.x.d) := by
  cases h with
  | bad h => rw [hbad] at h; cases h
  | start hm hq hs b h =>
    have hT := (PIn.init C hm).2
    cases hc : buf[c.p]? with
    | none =>
      right
      have := List.getElem?_eq_none_iff.mp hc
      have hpn : c.p = buf.length := by have := h.pn; omega
      refine ⟨?_, b, hpn ▸ h⟩
      unfold Multi.step
      rw [if_neg (by rw [hbad]; decide)]
      dsimp only
      rw [hc, hq]
      rfl
    | some ch =>
      obtain ⟨_, hcl⟩ := (closed_spec (C c.m hm).dfa (C c.m hm).closed).2 _ _ hT
      obtain ⟨bb, _, r, hr, _⟩ := hcl ch (condAt buf c.p c.x.d)
      have hsc : (M.mach c.m).scanner = true := by
        cases hx : (M.mach c.m).scanner with
        | true => rfl
        | false => unfold PA.succ at hr; rw [hx] at hr; cases hr
      cases hd : (M.mach c.m).nfa.delta [] ch.toNat (condAt buf c.p c.x.d) with
      | none =>
        exfalso
        rw [hd] at hr
        simp only [view, Option.map_none, PA.succ, hsc, PA.init] at hr
        simp only [Bool.not_true, Bool.false_eq_true, if_false, Nat.reduceBEq, Bool.false_and, Option.isSome_none, Bool.or_self, List.isEmpty_nil,
          if_true] at hr
        split at hr
        · rename_i hk
          have := bk_eq_vt ch (by simpa using hk)
          subst this
          exact hb.1 (List.mem_of_getElem? hc)
        · cases hr
      | some v =>
        left
        obtain ⟨q', as⟩ := v
        rw [← hq] at hd
        refine pread_exact C hb hs (ts := c.p) (a := PA.init) (b := b) ⟨?_, h.pd, (by nofun), fun _ => h.bp, fun _ => ⟨h.bp, h.ne⟩, (by nofun),
          Nat.le_refl _, (by nofun), ⟨by nofun, by nofun⟩, (by nofun), by rw [hq]; rfl⟩ hc (by rw [hsc, hq]; rfl) hd hbad
        rw [hq]; exact PIn.init C hm
  | tok hq hs a hm b h =>
    left
    obtain ⟨hm', hT⟩ := hm
    have he : c.q.isEmpty = false := by cases hx : c.q with | nil => exact absurd hx hq | cons _ _ => rfl
    obtain ⟨heof, hcl⟩ := (closed_spec (C c.m hm').dfa (C c.m hm').closed).2 _ _ hT
    have fall : a.fallbackOk M use c.m ((M.mach c.m).nfa.accepts c.q) ((M.mach c.m).nfa.leaveActs c.q) = true →
        (M.mach c.m).scanner = true → ((buf[c.p]?).bind fun b => (M.mach c.m).nfa.delta c.q b.toNat (condAt buf c.p c.x.d)) = none →
        ∃ c', M.step buf c = some c' ∧ PGood C buf c' := by
      intro h2 h3 h4
      obtain ⟨c', g1, g2⟩ := efallback_exact C hm' hs h h2
      refine ⟨c', ?_, g2⟩
      unfold Multi.step
      rw [if_neg (by rw [hbad]; decide)]
      dsimp only
      rw [h4]
      dsimp only
      rw [he, h3]
      simpa using g1
    have hsc : (M.mach c.m).scanner = true := by
      obtain ⟨bb, _, r, hr, _⟩ := hcl 0 (condAt buf c.p c.x.d)
      cases hx : (M.mach c.m).scanner with
      | true => rfl
      | false => unfold PA.succ at hr; rw [hx] at hr; cases hr
    cases hc : buf[c.p]? with
    | none =>
      have hheld : a.held = none := by
        cases hx : a.held with
        | none => rfl
        | some k =>
          obtain ⟨c', h1, _⟩ := h.i.held k hx
          rw [show (buf[c.p]? = some c') = (none = some c') by rw [hc]] at h1
          cases h1
      have hpl : c.p = buf.length := by
        have h1 := List.getElem?_eq_none_iff.mp hc
        have h2 : c.p ≤ buf.length := h.i.np
        omega
      refine fall ?_ hsc (by rw [hc]; rfl)
      simp only [PA.eofOk, he, hheld, Option.isSome_none, Bool.or_false, Bool.false_or, Bool.or_eq_true, beq_iff_eq] at heof
      rcases heof with (h1 | h2) | h3
      · exfalso
        obtain ⟨b', hb', _⟩ := h.i.cr.one h1
        rw [show (buf[c.p]? = some b') = (none = some b') by rw [hc]] at hb'
        cases hb'
      · exfalso
        obtain ⟨g1, g2, _⟩ := h.i.cr.two h2
        apply hb.2
        rw [List.getLast?_eq_getElem?, ← hpl]; exact g2
      · exact h3
    | some ch =>
      cases hd : (M.mach c.m).nfa.delta c.q ch.toNat (condAt buf c.p c.x.d) with
      | none =>
        obtain ⟨bb, _, r, hr, _⟩ := hcl ch (condAt buf c.p c.x.d)
        rw [hd] at hr
        simp only [view, Option.map_none, PA.succ, hsc, he, cr_prune h.i.cr hc, pheld_prune h.i.held hc, Bool.or_self, Bool.not_true,
          Bool.false_eq_true, if_false] at hr
        split at hr
        · rename_i hf
          exact fall hf hsc (by rw [hc]; exact hd)
        · cases hr
      | some v =>
        obtain ⟨q', as⟩ := v
        refine pread_exact C hb hs (ts := c.ts) (a := a) (b := b) ⟨⟨hm', hT⟩, h.i.d, h.i.ent, h.i.tb, fun x => ⟨(h.i.l0 x).1, (h.i.l0 x).2.1⟩, h.i.t0,
          h.i.le, h.i.acc, h.i.cr, h.i.held, by rw [he]; exact h.acc⟩ hc (by rw [he, Bool.and_false]; rfl) hd hbad

theorem erun_exact {buf : List Byte} (hb : Plain buf) : ∀ (k : Nat) {c : ECfg}, PGood C buf c → (M.run buf k c).bad = false →
    PGood C buf (M.run buf k c)
  | 0, _, h, _ => h
  | k + 1, c, h, hn => by
    have e : M.run buf (k + 1) c = match M.step buf c with | none => c | some c' => M.run buf k c' := rfl
    rw [e] at hn ⊢
    cases hbad : c.bad with
    | true =>
      have : M.step buf c = none := by unfold Multi.step; rw [if_pos hbad]
      rw [this] at hn
      rw [hbad] at hn; cases hn
    | false =>
      rcases estep_exact C hb h hbad with ⟨c', h1, h2⟩ | ⟨h1, _⟩
      · rw [h1] at hn ⊢
        exact erun_exact hb k h2 hn
      · rw [h1]; exact h

end

theorem pairUp_each {α : Type} {R : α → Rep → Prop} {S : α → ERep → Prop} (hRS : ∀ x l r, R x r → S x ⟨l, r.kind, r.s, r.e⟩) :
    ∀ {xs : List α} {rs : List Rep} {ls : List Nat}, Each R xs rs → ls.length = rs.length → Each S xs (pairUp ls rs)
  | _, _, [], .nil, _ => .nil
  | _, _, l :: ls, .cons h1 h2, hl => .cons (hRS _ _ _ h1) (pairUp_each hRS h2 (by simpa using hl))

/-- In a text of complete lines each line has one callback. -/
theorem reports_exact {P : EParser} {use : List Nat} (C : PCerts P.multi use) (hu : P.line ∈ use) {strict : Bool} (hk : Checked P P.line strict false)
    (l : ELeft) {buf : List Byte} (hb : Plain buf) (hl : buf.getLast? = some 10) :
    Each (fun (x : Nat × Nat) (r : ERep) => r.e = x.2 ∧ x.1 ≤ r.s ∧ r.s < x.2) (terminated buf) (P.reports l buf) := by
  obtain ⟨o, _, _, h1, h2, h3⟩ := hk.run l buf (by nofun)
  have hg : PGood C buf (eexec P.multi P.line l buf) := by
    refine erun_exact C hb _ ?_ h2
    exact .start hu rfl (by nofun) 0 ⟨.nil, Nat.le_refl _, Nat.zero_le _, NoE.self _ _, rfl, (by nofun), fun hf => by rcases hf with hf | hf <;> cases hf⟩
  rcases estep_exact C hb hg h2 with ⟨c', g1, _⟩ | ⟨_, b, h⟩
  · rw [h1] at g1; cases g1
  · have hlen : 0 < buf.length := by
      cases buf with
      | nil => cases hl
      | cons _ _ => simp
    have hbl : b = buf.length := by
      have hle : b ≤ buf.length := h.bp
      by_cases hx : b < buf.length
      · have := h.ne buf.length hx (Nat.le_refl _)
        obtain ⟨n, hn⟩ : ∃ n, buf.length = n + 1 := ⟨buf.length - 1, by omega⟩
        rw [hn] at this
        rw [List.getLast?_eq_getElem?, hn] at hl
        simp only [Nat.add_sub_cancel] at hl
        simp only [lineEnd, hl] at this
        cases this
      · omega
    have hout : (P.final P.multi l buf).d.out = (eexec P.multi P.line l buf).x.d.out ∧
        (P.final P.multi l buf).langs = (eexec P.multi P.line l buf).x.langs := by
      have : (eexec P.multi P.line l buf).x.d.processLastLine buf.length = (eexec P.multi P.line l buf).x.d := by
        unfold Data.processLastLine
        split
        · rename_i hf
          exfalso
          have hfl : (eexec P.multi P.line l buf).x.d.flag := by
            rw [Bool.or_eq_true] at hf; exact hf.symm
          cases hx : (eexec P.multi P.line l buf).x.d.ls with
          | none => exact h.fl hfl hx
          | some x =>
            have := h.ls x hx
            omega
        · rfl
      unfold EParser.final
      dsimp only
      rw [this]
      simp [EData.upd]
    unfold EParser.reports
    dsimp only
    rw [hout.1, hout.2]
    refine pairUp_each (R := OfLineR) (fun x l r hr => hr) ?_ h3.l.out.1
    exact h.told.all fun e he1 he2 => by omega

end Ohcount.Ragel
