import Verif.RagelExact

/-!
Line ends of scanners that queue the callbacks of multi-line strings (`enqueue`, `commit`,
common.rl:30-49).  When such a string is never closed the scanner goes back to its opening
delimiter, and the `switch` of the callback may run with the entity left by the last line end in
the string.  Then `inqueue` stays set, with `line_start` and the flags overwritten, until the next
token restores them from the backup variables; a string opened in between saves the overwritten
values.  Kind and start of a line can be wrong then, but under the static check below every line
end is reported exactly once, and in order.
-/

namespace Ohcount.Ragel

/-- The report `r` is one for the line `[x.1, x.2)`: it starts in the line and ends at its end. -/
def EndsLine (x : Nat × Nat) (r : Rep) : Prop := r.e = x.2 ∧ x.1 ≤ r.s ∧ r.s < r.e

/-- The reports `l` end, one each and in order, the lines from the start to `x`. -/
inductive QTiled (buf : List Byte) : List Rep → Nat → Prop
  | nil : QTiled buf [] 0
  | snoc {l x r} : QTiled buf l x → x < r.e → noEnd buf x r.e → lineEnd buf r.e = true →
      x ≤ r.s → r.s < r.e → QTiled buf (l ++ [r]) r.e

theorem QTiled.spec {buf : List Byte} {l : List Rep} {x : Nat} (h : QTiled buf l x) :
    Each EndsLine ((0 :: endsTo buf x).zip (endsTo buf x)) l ∧ (endsTo buf x).getLastD 0 = x ∧ x ≤ buf.length := by
  induction h with
  | nil =>
    refine ⟨?_, rfl, Nat.zero_le _⟩
    have : endsTo buf 0 = [] := rfl
    rw [this]; exact .nil
  | @snoc l x r h1 hx hn he hs hs2 ih =>
    rw [endsTo_snoc hx hn he]
    refine ⟨?_, by simp, lineEnd_le he⟩
    rw [zip_snoc, ih.2.1]
    exact ih.1.snoc ⟨rfl, hs, hs2⟩

theorem QTiled.all {buf : List Byte} {l : List Rep} {x : Nat} (h : QTiled buf l x)
    (hn : ∀ e, x < e → e ≤ buf.length → lineEnd buf e = false) :
    Each EndsLine (terminated buf) l ∧ lastStart buf = x := by
  have hs := h.spec
  have : lineEnds buf = endsTo buf x := endsTo_same buf.length hs.2.2 hn
  unfold terminated lastStart
  rw [this]
  exact ⟨hs.1, hs.2.1⟩

/-- Abstract value inside a token; the meaning of the fields is `QD` and `QMark` below.  `pend` a
line end was read and not reported; `ls` `line_start` is set; `inl` a line was reported (or queued)
in the token; `cross` the same since the last match; `mode` 0: callbacks and queue variables are as
at the start of the token, 1: `enqueue` was run in the token and `commit` was not, 2: not queueing;
`ent` the entity; `acc` the last match; `accIn` a line ended in the token up to that match; `off`:
`te + off ≤ p + 1`; `cr` as in `BA`. -/
structure QA where
  pend : Bool
  ls : Bool
  inl : Bool
  cross : Bool
  mode : Nat
  ent : Option Ent
  acc : Option Nat
  accIn : Bool
  off : Nat
  cr : Nat
  deriving DecidableEq, Repr

namespace QA

def init : QA :=
  { pend := false, ls := false, inl := false, cross := false, mode := 0, ent := none, acc := none, accIn := false,
    off := 0, cr := 0 }

/-- `st`: `inqueue` may be set at the start of a token. -/
def act (st : Bool) (M : Machine) (a : QA) : Act → Option QA
  | .setEnt e => some { a with ent := some e }
  | .code | .comment => some { a with ls := true }
  | .enqueue => if !a.inl && a.mode != 2 then some { a with mode := 1 } else none
  | .commit => if a.mode == 0 then (if st then none else some a) else some { a with mode := 2 }
  | .nestRes | .nestInc | .nestDec => some a
  | .fhold _ | .emb _ => none
  | .cb => match a.ent with
    | none => none
    | some e =>
      if M.op e = .internalNewline && a.pend && a.ls && !(a.mode == 0 && st) then
        some { a with pend := false, inl := true, cross := true, mode := if a.mode == 0 then 2 else a.mode }
      else none

def acts (st : Bool) (M : Machine) : QA → List Act → Option QA
  | a, [] => some a
  | a, x :: r => match a.act st M x with | none => none | some a' => acts st M a' r

/-- The token ends here with pattern `k`. -/
def endOk (M : Machine) (a : QA) (k : Nat) : Bool :=
  a.mode != 1 &&
  match M.ends.getD k .none with
  | .none => !a.pend
  | .ecb => false
  | .cb => match a.ent with
    | none => false
    | some e => match M.op e with
      | .newline => a.pend && !a.inl
      | .ls | .code | .comment | .nop => !a.pend
      | .internalNewline => false

/-- The token ends with pattern `k` while a queue opened in it is not committed. -/
def openOk (st : Bool) (M : Machine) (a : QA) (k : Nat) : Bool :=
  match M.ends.getD k .none with
  | .cb => (match a.ent with
    | none => false
    | some e => match M.op e with
      | .ls | .code | .comment => true
      | .internalNewline => st
      | _ => false)
  | _ => false

/-- The scanner may go back to the last match, of pattern `k`. -/
def backOk (st : Bool) (M : Machine) (a : QA) (k : Nat) : Bool :=
  if a.mode == 1 then !a.accIn && a.openOk st M k
  else !a.cross && (a.off == 2 || !a.pend) && { a with pend := false }.endOk M k

def fallbackOk (st : Bool) (M : Machine) (eof : Bool) (acc : Option Nat) (l : List Act) (a : QA) : Bool :=
  match acc with
  | some k => l.isEmpty && (if a.mode == 1 then !a.inl && !a.pend && a.openOk st M k else a.endOk M k)
  | none => match a.acc with
    | none => eof && a.cr == 2
    | some k => a.backOk st M k

/-- The effect of the byte read, after the actions. -/
def char (a : QA) (k : BK) (cr : Bool) (k? : Option Nat) : Option QA :=
  if a.pend then none
  else some { a with
    pend := BA.isNl k cr
    cr := if k == .cr then (if cr then 1 else 2) else 0
    acc := if k?.isSome then k? else a.acc
    off := if k?.isSome then 1 else 2
    accIn := if k?.isSome then a.inl || BA.isNl k cr else a.accIn
    cross := if k?.isSome then false else a.cross }

def succ (st : Bool) (M : Machine) : Succ QA := fun s acc l a _ k cr v =>
  if (a.cr == 1 && k == .lf) || (a.cr == 2 && k != .lf) then some none else
  match v with
  | none =>
    if s then (if k == .vt then some none else none)
    else if a.fallbackOk st M false acc l then some none else none
  | some (as, k?, last) =>
    match a.acts st M as with
    | none => none
    | some a1 =>
      match a1.char k cr k? with
      | none => none
      | some a2 =>
        if last then (if a2.endOk M (k?.getD 0) then some none else none)
        else some (some a2)

def eofOk (st : Bool) (M : Machine) : EofOk QA := fun s acc l a =>
  s || a.cr == 1 || a.fallbackOk st M true acc l

end QA

/-! ### Meaning of the abstract values -/

/-- Between two tokens, at position `p`; `x` is where the first line not yet reported starts. -/
structure QStart (st : Bool) (buf : List Byte) (p x : Nat) (d : Data) : Prop where
  inq : st = false → d.inq = false
  ls : ∀ y, d.ls = some y → x ≤ y ∧ y < p
  fls : d.flag → d.ls ≠ none
  last : d.inq = true → (∀ y, d.lastLs = some y → x ≤ y ∧ y < p) ∧
    (d.lastLcc = true ∨ d.lastWlc = true → d.lastLs ≠ none)
  xp : x ≤ p
  pn : p ≤ buf.length
  ne : ∀ e, x < e → e ≤ p → lineEnd buf e = false
  til : QTiled buf d.out x

/-- The variables inside a token that started at `ts`, at position `p`; `x` as above, counting
queued reports as made; `x0` and `d0` are `x` and the variables at the start of the token. -/
structure QD (st : Bool) (buf : List Byte) (ts p : Nat) (a : QA) (d : Data) (x x0 : Nat) (d0 : Data) : Prop where
  s0 : QStart st buf ts x0 d0
  tp : ts ≤ p
  pn : p ≤ buf.length
  xp : x ≤ p
  ne : noEnd buf x p
  pend : a.pend = true ↔ (lineEnd buf p = true ∧ x < p)
  tsp : a.pend = true → ts < p
  ls : ∀ y, d.ls = some y → x ≤ y ∧ y ≤ p ∧ (a.pend = true → y < p)
  lsT : a.ls = true → d.ls ≠ none
  inlT : a.inl = true → d.ls ≠ none
  inlF : a.inl = false → x = x0 ∧ ∀ y, d.ls = some y → y ≤ ts
  fls : d.flag → d.ls ≠ none
  ent : ∀ e, a.ent = some e → d.ent = e
  md : a.mode = 0 ∨ a.mode = 1 ∨ a.mode = 2
  m0 : a.mode = 0 → a.inl = false ∧ d.out = d0.out ∧ d.inq = d0.inq ∧ d.lastLs = d0.lastLs ∧ d.lastLcc = d0.lastLcc ∧
    d.lastWlc = d0.lastWlc
  m1 : a.mode = 1 → d.inq = true ∧ d.out = d0.out ∧ (∀ y, d.lastLs = some y → x0 ≤ y ∧ y ≤ ts) ∧
    (d.lastLcc = true ∨ d.lastWlc = true → d.lastLs ≠ none) ∧ QTiled buf (d.out ++ d.queue) x
  m2 : a.mode = 2 → d.inq = false ∧ QTiled buf d.out x

/-- Fields that the actions of a transition leave alone. -/
structure QFrame (a a' : QA) : Prop where
  acc : a'.acc = a.acc
  accIn : a'.accIn = a.accIn
  off : a'.off = a.off
  cr : a'.cr = a.cr

theorem QFrame.refl (a : QA) : QFrame a a := ⟨rfl, rfl, rfl, rfl⟩
theorem QFrame.trans {a b c : QA} (h : QFrame a b) (h' : QFrame b c) : QFrame a c :=
  ⟨h'.acc.trans h.acc, h'.accIn.trans h.accIn, h'.off.trans h.off, h'.cr.trans h.cr⟩

/-- How `x` and `line_start` move: `x` not at all and `line_start` at most to `ts`, or a line was reported. -/
def QMove (ts : Nat) (a a' : QA) (d d' : Data) (x x' : Nat) : Prop :=
  (x' = x ∧ a'.cross = a.cross ∧ ∀ y, d'.ls = some y → d.ls = some y ∨ y = ts) ∨ a'.cross = true

theorem QMove.trans {ts : Nat} {a b c : QA} {d e f : Data} {x y z : Nat} (h : QMove ts a b d e x y)
    (h' : QMove ts b c e f y z) : QMove ts a c d f x z := by
  rcases h' with ⟨h1, h2, h3⟩ | h'
  · rcases h with ⟨g1, g2, g3⟩ | g1
    · refine Or.inl ⟨h1.trans g1, h2.trans g2, fun w hw => ?_⟩
      rcases h3 w hw with h | h
      · exact g3 w h
      · exact Or.inr h
    · exact Or.inr (h2.trans g1)
  · exact Or.inr h'

/-- `line_start` after `code` or `comment`. -/
theorem actCode_ls' {d : Data} (ts : Nat) (hf : d.flag → d.ls ≠ none) :
    (d.actCode ts).ls ≠ none ∧ ∀ y, (d.actCode ts).ls = some y → d.ls = some y ∨ (d.ls = none ∧ y = ts) := by
  unfold Data.actCode
  cases hl : d.ls with
  | some z => simp
  | none =>
    cases hc : d.lcc with
    | true => exact absurd hl (hf (Or.inl hc))
    | false => simp [eq_comm]

theorem actComment_ls' {d : Data} (ts : Nat) (hf : d.flag → d.ls ≠ none) :
    (d.actComment ts).ls ≠ none ∧ ∀ y, (d.actComment ts).ls = some y → d.ls = some y ∨ (d.ls = none ∧ y = ts) := by
  unfold Data.actComment
  cases hc : d.lcc with
  | true => exact ⟨by simpa using hf (Or.inl hc), fun y h => Or.inl (by simpa using h)⟩
  | false =>
    cases hl : d.ls with
    | some z => simp
    | none => simp [eq_comm]

theorem QD.setLs {st : Bool} {buf : List Byte} {ts p : Nat} {a : QA} {d d' : Data} {x x0 : Nat} {d0 : Data}
    (h : QD st buf ts p a d x x0 d0) (h1 : d'.ls ≠ none)
    (h2 : ∀ y, d'.ls = some y → d.ls = some y ∨ (d.ls = none ∧ y = ts))
    (r : d'.inq = d.inq ∧ d'.out = d.out ∧ d'.queue = d.queue ∧ d'.ent = d.ent ∧ d'.lastLs = d.lastLs ∧
      d'.lastLcc = d.lastLcc ∧ d'.lastWlc = d.lastWlc) :
    QD st buf ts p { a with ls := true } d' x x0 d0 ∧ QMove ts a { a with ls := true } d d' x x := by
  obtain ⟨r1, r2, r3, r4, r5, r6, r7⟩ := r
  refine ⟨?_, Or.inl ⟨rfl, rfl, fun y hy => (h2 y hy).imp id And.right⟩⟩
  exact { h with
    ls := by
      intro y hy
      rcases h2 y hy with h3 | ⟨h3, rfl⟩
      · exact h.ls y h3
      · have hi : a.inl = false := by
          cases hi : a.inl with
          | false => rfl
          | true => exact absurd h3 (h.inlT hi)
        have := (h.inlF hi).1
        have h4 := h.s0.xp
        exact ⟨by omega, h.tp, fun hp => h.tsp hp⟩
    lsT := fun _ => h1
    inlT := fun _ => h1
    inlF := fun hi => ⟨(h.inlF hi).1, fun y hy => by
      rcases h2 y hy with h3 | ⟨_, rfl⟩
      · exact (h.inlF hi).2 y h3
      · exact Nat.le_refl _⟩
    fls := fun _ => h1
    ent := by rw [r4]; exact h.ent
    m0 := by rw [r1, r2, r5, r6, r7]; exact h.m0
    m1 := by rw [r1, r2, r3, r5, r6, r7]; exact h.m1
    m2 := by rw [r1, r2]; exact h.m2 }

theorem QD.act {st : Bool} {M : Machine} {buf : List Byte} {ts te p : Nat} {a a' : QA} {d : Data} {x x0 : Nat} {d0 : Data}
    {t : Act} (h : QD st buf ts p a d x x0 d0) (ha : a.act st M t = some a') :
    ∃ x', QD st buf ts p a' (M.act ts te (d, p + 1) t).1 x' x0 d0 ∧
      QMove ts a a' d (M.act ts te (d, p + 1) t).1 x x' ∧ QFrame a a' ∧
      (M.act ts te (d, p + 1) t).2 = p + 1 := by
  have same : ∀ {d' : Data}, d'.ls = d.ls → ∀ y, d'.ls = some y → d.ls = some y ∨ y = ts :=
    fun h y hy => Or.inl (h ▸ hy)
  cases t with
  | setEnt e =>
    simp only [QA.act, Option.some.injEq] at ha; subst ha
    refine ⟨x, { h with ent := ?_ }, Or.inl ⟨rfl, rfl, same rfl⟩, ⟨rfl, rfl, rfl, rfl⟩, rfl⟩
    intro e' he'; simp only [Option.some.injEq] at he'; exact he'
  | code =>
    simp only [QA.act, Option.some.injEq] at ha; subst ha
    obtain ⟨h1, h2⟩ := actCode_ls' ts h.fls
    obtain ⟨b1, b2⟩ := h.setLs h1 h2 ⟨rfl, rfl, rfl, rfl, rfl, rfl, rfl⟩
    exact ⟨x, b1, b2, ⟨rfl, rfl, rfl, rfl⟩, rfl⟩
  | comment =>
    simp only [QA.act, Option.some.injEq] at ha; subst ha
    obtain ⟨h1, h2⟩ := actComment_ls' ts h.fls
    obtain ⟨b1, b2⟩ := h.setLs h1 h2 (actComment_rest d ts)
    exact ⟨x, b1, b2, ⟨rfl, rfl, rfl, rfl⟩, rfl⟩
  | enqueue =>
    simp only [QA.act] at ha
    split at ha
    · rename_i hu
      simp only [Bool.and_eq_true, Bool.not_eq_true', bne_iff_ne] at hu
      simp only [Option.some.injEq] at ha; subst ha
      obtain ⟨hx, hy⟩ := h.inlF hu.1
      have hout : d.out = d0.out := by
        rcases h.md with hm | hm | hm
        · exact (h.m0 hm).2.1
        · exact (h.m1 hm).2.1
        · exact absurd hm hu.2
      refine ⟨x, ?_, Or.inl ⟨rfl, rfl, same rfl⟩, ⟨rfl, rfl, rfl, rfl⟩, rfl⟩
      exact { h with
        md := Or.inr (Or.inl rfl)
        m0 := by simp
        m1 := fun _ => ⟨rfl, hout, fun y hl => ⟨by rw [← hx]; exact (h.ls y hl).1, hy y hl⟩, h.fls, by
          simp only [Machine.act, Data.actEnqueue, List.append_nil]
          rw [hout, hx]; exact h.s0.til⟩
        m2 := by simp }
    · cases ha
  | commit =>
    simp only [QA.act] at ha
    split at ha
    · rename_i hm
      have hm : a.mode = 0 := by simpa using hm
      split at ha
      · cases ha
      · rename_i hst
        simp only [Option.some.injEq] at ha; subst ha
        have hq : d.inq = false := by rw [(h.m0 hm).2.2.1]; exact h.s0.inq (by simpa using hst)
        have : d.actCommit = d := by unfold Data.actCommit; rw [hq]; rfl
        refine ⟨x, ?_, Or.inl ⟨rfl, rfl, ?_⟩, QFrame.refl a, rfl⟩
        · simp only [Machine.act, this]; exact h
        · simp only [Machine.act, this]; exact same rfl
    · rename_i hm
      have hm : a.mode ≠ 0 := by simpa using hm
      simp only [Option.some.injEq] at ha; subst ha
      have hls : (d.actCommit).ls = d.ls := by unfold Data.actCommit; split <;> rfl
      refine ⟨x, ?_, Or.inl ⟨rfl, rfl, same hls⟩, ⟨rfl, rfl, rfl, rfl⟩, rfl⟩
      rcases h.md with hm' | hm' | hm'
      · exact absurd hm' hm
      · obtain ⟨q1, q2, q3, q4, q5⟩ := h.m1 hm'
        have : d.actCommit = { d with out := d.out ++ d.queue, queue := [], inq := false } := by
          unfold Data.actCommit; rw [if_pos q1]
        simp only [Machine.act, this]
        exact { h with
          md := Or.inr (Or.inr rfl)
          m0 := by simp
          m1 := by simp
          m2 := fun _ => ⟨rfl, q5⟩ }
      · obtain ⟨q1, q2⟩ := h.m2 hm'
        have : d.actCommit = d := by unfold Data.actCommit; rw [q1]; rfl
        simp only [Machine.act, this]
        exact { h with
          md := Or.inr (Or.inr rfl)
          m0 := by simp
          m1 := by simp
          m2 := fun _ => ⟨q1, q2⟩ }
  | nestRes =>
    simp only [QA.act, Option.some.injEq] at ha; subst ha
    exact ⟨x, { h with }, Or.inl ⟨rfl, rfl, same rfl⟩, QFrame.refl a, rfl⟩
  | nestInc =>
    simp only [QA.act, Option.some.injEq] at ha; subst ha
    exact ⟨x, { h with }, Or.inl ⟨rfl, rfl, same rfl⟩, QFrame.refl a, rfl⟩
  | nestDec =>
    simp only [QA.act, Option.some.injEq] at ha; subst ha
    exact ⟨x, { h with }, Or.inl ⟨rfl, rfl, same rfl⟩, QFrame.refl a, rfl⟩
  | fhold i => simp [QA.act] at ha
  | emb e => simp [QA.act] at ha
  | cb =>
    simp only [QA.act] at ha
    cases he : a.ent with
    | none => rw [he] at ha; cases ha
    | some e =>
      rw [he] at ha
      dsimp only at ha
      split at ha
      · rename_i hc
        simp only [Option.some.injEq] at ha; subst ha
        simp only [Bool.and_eq_true, decide_eq_true_eq, Bool.not_eq_true', beq_iff_eq, Bool.and_eq_false_imp] at hc
        obtain ⟨⟨⟨c1, c2⟩, c3⟩, c4⟩ := hc
        have hent := h.ent e he
        have hcb : M.act ts te (d, p + 1) Act.cb = (d.stdInternalNewline p, p + 1) := by
          simp only [Machine.act, Machine.callback, hent, c1, Nat.add_sub_cancel]
        rw [hcb]
        obtain ⟨pe, px⟩ := h.pend.mp c2
        cases hls : d.ls with
        | none => exact absurd hls (h.lsT c3)
        | some y =>
          obtain ⟨y1, y2, y3⟩ := h.ls y hls
          have y4 := y3 c2
          have hemit : d.stdInternalNewline p =
              { d.emit d.inq d.kind (some y) p with wlc := false, lcc := false, ls := some p } := by
            unfold Data.stdInternalNewline
            rw [hls]
            simp only [Data.after, decide_eq_true_eq, if_pos y4]
          have hsn : ∀ l, QTiled buf l x → QTiled buf (l ++ [⟨d.kind, y, p⟩]) p := fun l hl =>
            QTiled.snoc (r := ⟨d.kind, y, p⟩) hl px h.ne pe y1 y4
          refine ⟨p, ?_, Or.inr rfl, ⟨rfl, rfl, rfl, rfl⟩, rfl⟩
          rw [hemit]
          have hnf : ¬ ({ d.emit d.inq d.kind (some y) p with wlc := false, lcc := false, ls := some p } : Data).flag := by
            simp [Data.flag]
          have hent' : ∀ q : Bool, (d.emit q d.kind (some y) p).ent = d.ent := by
            intro q; unfold Data.emit; dsimp only; split <;> rfl
          exact {
            s0 := h.s0, tp := h.tp, pn := h.pn
            xp := Nat.le_refl _
            ne := fun e h1 h2 => by omega
            pend := by simp
            tsp := by simp
            ls := by
              intro z hz
              simp only [Option.some.injEq] at hz
              subst hz
              exact ⟨Nat.le_refl _, Nat.le_refl _, by simp⟩
            lsT := by simp
            inlT := by simp
            inlF := by simp
            fls := by simp
            ent := fun e' he' => by
              show (d.emit d.inq d.kind (some y) p).ent = e'
              rw [hent']; exact h.ent e' (he.trans he')
            md := by
              dsimp only
              split
              · exact Or.inr (Or.inr rfl)
              · exact h.md
            m0 := by
              dsimp only
              split
              · intro hh; cases hh
              · rename_i hm; intro hh; exact absurd hh (by simpa using hm)
            m1 := by
              dsimp only
              split
              · intro hh; cases hh
              · intro hm
                obtain ⟨q1, q2, q3, q4, q5⟩ := h.m1 hm
                rw [q1]
                refine ⟨q1, q2, q3, q4, ?_⟩
                simp only [Data.emit, if_true]
                rw [← List.append_assoc]
                exact hsn _ q5
            m2 := by
              dsimp only
              intro hm
              have hk : d.inq = false ∧ QTiled buf d.out x := by
                by_cases hm0 : a.mode = 0
                · obtain ⟨q1, q2, q3, _⟩ := h.m0 hm0
                  refine ⟨by rw [q3]; exact h.s0.inq (c4 hm0), ?_⟩
                  rw [q2, (h.inlF q1).1]; exact h.s0.til
                · rw [if_neg (by simpa using hm0)] at hm
                  exact h.m2 hm
              rw [hk.1]
              exact ⟨hk.1, hsn _ hk.2⟩ }
      · cases ha

theorem QD.acts {st : Bool} {M : Machine} {buf : List Byte} {ts te p x0 : Nat} {d0 : Data} :
    ∀ {l : List Act} {a a' : QA} {d : Data} {x : Nat}, QD st buf ts p a d x x0 d0 →
    a.acts st M l = some a' →
    ∃ x', QD st buf ts p a' (M.acts ts te (d, p + 1) l).1 x' x0 d0 ∧
      QMove ts a a' d (M.acts ts te (d, p + 1) l).1 x x' ∧ QFrame a a' ∧
      (M.acts ts te (d, p + 1) l).2 = p + 1
  | [], a, a', d, x, h, ha => by
    simp only [QA.acts, Option.some.injEq] at ha; subst ha
    exact ⟨x, h, Or.inl ⟨rfl, rfl, fun y hy => Or.inl hy⟩, QFrame.refl a, rfl⟩
  | t :: r, a, a', d, x, h, ha => by
    simp only [QA.acts] at ha
    cases hx : a.act st M t with
    | none => rw [hx] at ha; cases ha
    | some a1 =>
      rw [hx] at ha
      dsimp only at ha
      obtain ⟨x1, b1, m1, f1, n1⟩ := h.act (te := te) hx
      obtain ⟨x2, b2, m2, f2, n2⟩ := QD.acts (te := te) b1 ha
      have hfold : M.acts ts te (d, p + 1) (t :: r) =
          M.acts ts te ((M.act ts te (d, p + 1) t).1, p + 1) r := by
        show M.acts ts te (M.act ts te (d, p + 1) t) r = _
        congr 1
        exact Prod.ext rfl n1
      rw [hfold]
      exact ⟨x2, b2, m1.trans m2, f1.trans f2, n2⟩

/-! ### The end of a token -/

theorem QD.noEnd' {st : Bool} {buf : List Byte} {ts p : Nat} {a : QA} {d : Data} {x x0 : Nat} {d0 : Data}
    (h : QD st buf ts p a d x x0 d0) (hp : a.pend = false) : ∀ e, x < e → e ≤ p → lineEnd buf e = false := by
  intro e h1 h2
  by_cases he : e = p
  · subst he
    cases hl : lineEnd buf e with
    | false => rfl
    | true => rw [h.pend.mpr ⟨hl, h1⟩] at hp; cases hp
  · exact h.ne e h1 (by omega)

/-- Outside a queue opened in the token, the variables are those of a token start. -/
theorem QD.rest {st : Bool} {buf : List Byte} {ts p : Nat} {a : QA} {d : Data} {x x0 : Nat} {d0 : Data}
    (h : QD st buf ts p a d x x0 d0) (hm : a.mode ≠ 1) (hts : ts < p) (hls : ∀ y, d.ls = some y → y < p) :
    (st = false → d.inq = false) ∧ (∀ y, d.ls = some y → x ≤ y ∧ y < p) ∧
    (d.inq = true → (∀ y, d.lastLs = some y → x ≤ y ∧ y < p) ∧
      (d.lastLcc = true ∨ d.lastWlc = true → d.lastLs ≠ none)) ∧ QTiled buf d.out x := by
  have h2 : ∀ y, d.ls = some y → x ≤ y ∧ y < p := fun y hy => ⟨(h.ls y hy).1, hls y hy⟩
  rcases h.md with hm' | hm' | hm'
  · obtain ⟨q1, q2, q3, q4, q5, q6⟩ := h.m0 hm'
    have hx := (h.inlF q1).1
    refine ⟨fun hs => by rw [q3]; exact h.s0.inq hs, h2, ?_, by rw [q2, hx]; exact h.s0.til⟩
    rw [q3, q4, q5, q6]
    intro hq
    obtain ⟨g1, g2⟩ := h.s0.last hq
    refine ⟨fun y hy => ?_, g2⟩
    have := g1 y hy
    omega
  · exact absurd hm' hm
  · obtain ⟨q1, q2⟩ := h.m2 hm'
    exact ⟨fun _ => q1, h2, fun hq => by (rw [q1] at hq; cases hq), q2⟩

/-- The variables after `if (inqueue) { dequeue; }`. -/
theorem deq_spec {st : Bool} {buf : List Byte} {p x : Nat} {d : Data}
    (h : (st = false → d.inq = false) ∧ (∀ y, d.ls = some y → x ≤ y ∧ y < p) ∧
    (d.inq = true → (∀ y, d.lastLs = some y → x ≤ y ∧ y < p) ∧
      (d.lastLcc = true ∨ d.lastWlc = true → d.lastLs ≠ none)) ∧ QTiled buf d.out x) (hf : d.flag → d.ls ≠ none) :
    d.deq.inq = false ∧ (∀ y, d.deq.ls = some y → x ≤ y ∧ y < p) ∧ (d.deq.flag → d.deq.ls ≠ none) ∧ QTiled buf d.deq.out x := by
  obtain ⟨h1, h2, h3, h4⟩ := h
  unfold Data.deq
  cases hq : d.inq with
  | false => simp only [Bool.false_eq_true, if_false]; exact ⟨hq, h2, hf, h4⟩
  | true =>
    simp only [if_true, Data.dequeue]
    obtain ⟨g1, g2⟩ := h3 hq
    exact ⟨trivial, g1, g2, h4⟩

/-- The end actions `ls`, `code` and `comment`, once the queue is given up. -/
theorem marked {st : Bool} {buf : List Byte} {ts p x : Nat} {d d' : Data}
    (h : d.deq.inq = false ∧ (∀ y, d.deq.ls = some y → x ≤ y ∧ y < p) ∧ (d.deq.flag → d.deq.ls ≠ none) ∧ QTiled buf d.deq.out x)
    (hx : x ≤ ts) (hts : ts < p) (hpn : p ≤ buf.length) (hne : ∀ e, x < e → e ≤ p → lineEnd buf e = false)
    (hd : d' = d.mLs ts ∨ d' = d.mCode ts ∨ d' = d.mComment ts ) : QStart st buf p x d' := by
  obtain ⟨h1, h2, h3, h4⟩ := h
  rcases hd with rfl | rfl | rfl
  · have hl : (d.mLs ts).ls ≠ none ∧ ∀ y, (d.mLs ts).ls = some y → d.deq.ls = some y ∨ (d.deq.ls = none ∧ y = ts) := by
      unfold Data.mLs
      cases hl : d.deq.ls with
      | none => simp [hl, eq_comm]
      | some z => simp [hl]
    exact ⟨fun _ => h1, fun y hy => by
      rcases hl.2 y hy with h5 | ⟨_, rfl⟩
      · exact h2 y h5
      · exact ⟨hx, hts⟩, fun _ => hl.1, fun hq => by (rw [show (d.mLs ts).inq = d.deq.inq from rfl, h1] at hq; cases hq),
      by omega, hpn, hne, h4⟩
  · have hl := actCode_ls' ts h3
    exact ⟨fun _ => h1, fun y hy => by
      rcases hl.2 y hy with h5 | ⟨_, rfl⟩
      · exact h2 y h5
      · exact ⟨hx, hts⟩, fun _ => hl.1, fun hq => by (rw [show (d.mCode ts).inq = d.deq.inq from rfl, h1] at hq; cases hq),
      by omega, hpn, hne, h4⟩
  · have hl := actComment_ls' ts h3
    obtain ⟨r1, r2, _⟩ := actComment_rest d.deq ts
    exact ⟨fun _ => r1.trans h1, fun y hy => by
      rcases hl.2 y hy with h5 | ⟨_, rfl⟩
      · exact h2 y h5
      · exact ⟨hx, hts⟩, fun _ => hl.1, fun hq => by (rw [show (d.mComment ts).inq = (d.deq.actComment ts).inq from rfl, r1, h1] at hq; cases hq),
      by omega, hpn, hne, by rw [show (d.mComment ts).out = (d.deq.actComment ts).out from rfl, r2]; exact h4⟩

/-- As `marked`, when a line was reported in the token and `line_start` is set. -/
theorem marked' {st : Bool} {buf : List Byte} {ts p x : Nat} {d d' : Data} (hq : d.inq = false)
    (h : ∀ y, d.ls = some y → x ≤ y ∧ y < p) (h0 : d.ls ≠ none) (ht : QTiled buf d.out x)
    (hxp : x ≤ p) (hpn : p ≤ buf.length) (hne : ∀ e, x < e → e ≤ p → lineEnd buf e = false)
    (hd : d' = d.mLs ts ∨ d' = d.mCode ts ∨ d' = d.mComment ts ) : QStart st buf p x d' := by
  have hdeq : d.deq = d := by unfold Data.deq; rw [hq]; rfl
  cases hl : d.ls with
  | none => exact absurd hl h0
  | some y =>
    have hls : d'.ls = some y ∧ d'.inq = false ∧ d'.out = d.out := by
      rcases hd with rfl | rfl | rfl
      · unfold Data.mLs; rw [hdeq]; simp [hl, hq]
      · unfold Data.mCode; rw [hdeq]; simp [Data.actCode, hl, hq]
      · unfold Data.mComment; rw [hdeq]
        obtain ⟨r1, r2, _⟩ := actComment_rest d ts
        refine ⟨?_, r1.trans hq, r2⟩
        unfold Data.actComment; split <;> simp [hl]
    obtain ⟨l1, l2, l3⟩ := hls
    exact ⟨fun _ => l2, fun z hz => by (rw [l1] at hz; simp only [Option.some.injEq] at hz; subst hz; exact h _ hl),
      fun _ => by (rw [l1]; simp), fun hh => by (rw [l2] at hh; cases hh), hxp, hpn, hne, by rw [l3]; exact ht⟩

theorem QD.finish {st : Bool} {M : Machine} {buf : List Byte} {ts te k : Nat} {a : QA} {d : Data} {x x0 : Nat} {d0 : Data}
    (h : QD st buf ts te a d x x0 d0) (hts : ts < te) (hls : ∀ y, d.ls = some y → y < te)
    (hk : a.endOk M k = true) : ∃ x', QStart st buf te x' (M.runEnd d ts te k) := by
  unfold QA.endOk at hk
  rw [Bool.and_eq_true, bne_iff_ne] at hk
  obtain ⟨hm, hk⟩ := hk
  have hr := h.rest hm hts hls
  have keep : a.pend = false → QStart st buf te x d := fun hp =>
    ⟨hr.1, hr.2.1, h.fls, hr.2.2.1, h.xp, h.pn, h.noEnd' hp, hr.2.2.2⟩
  have mk : ∀ d', a.pend = false → (d' = d.mLs ts ∨ d' = d.mCode ts ∨ d' = d.mComment ts) → QStart st buf te x d' := by
    intro d' hp hd
    cases hi : a.inl with
    | false =>
      refine marked (deq_spec hr h.fls) ?_ hts h.pn (h.noEnd' hp) hd
      rw [(h.inlF hi).1]; exact h.s0.xp
    | true =>
      rcases h.md with hm' | hm' | hm'
      · rw [(h.m0 hm').1] at hi; cases hi
      · exact absurd hm' hm
      · exact marked' (h.m2 hm').1 hr.2.1 (h.inlT hi) hr.2.2.2 h.xp h.pn (h.noEnd' hp) hd
  unfold Machine.runEnd
  cases hx : M.ends.getD k .none with
  | none =>
    rw [hx] at hk
    exact ⟨x, keep (by simpa using hk)⟩
  | ecb => rw [hx] at hk; cases hk
  | cb =>
    rw [hx] at hk
    dsimp only at hk ⊢
    cases he : a.ent with
    | none => rw [he] at hk; cases hk
    | some e =>
      rw [he] at hk
      dsimp only at hk
      unfold Machine.callback
      rw [h.ent e he]
      cases ho : M.op e with
      | nop => rw [ho] at hk; exact ⟨x, keep (by simpa using hk)⟩
      | internalNewline => rw [ho] at hk; cases hk
      | code => rw [ho] at hk; exact ⟨x, mk _ (by simpa using hk) (Or.inr (Or.inl rfl))⟩
      | comment => rw [ho] at hk; exact ⟨x, mk _ (by simpa using hk) (Or.inr (Or.inr rfl))⟩
      | ls => rw [ho] at hk; exact ⟨x, mk _ (by simpa using hk) (Or.inl rfl)⟩
      | newline =>
        rw [ho] at hk
        simp only [Bool.and_eq_true, Bool.not_eq_true'] at hk
        obtain ⟨k1, k2⟩ := hk
        obtain ⟨pe, px⟩ := h.pend.mp k1
        have hx0 := (h.inlF k2).1
        have hxts : x ≤ ts := by rw [hx0]; exact h.s0.xp
        obtain ⟨g1, g2, g3, g4⟩ := deq_spec hr h.fls
        have haft : Data.after te d.deq.ls = true := by
          cases hl : d.deq.ls with
          | none => rfl
          | some y => simp [Data.after, (g2 y hl).2]
        have hrr : ∃ k s, d.stdNewline ts te =
            { d.deq with out := d.deq.out ++ [⟨k, s, te⟩], wlc := false, lcc := false, ls := none } ∧ x ≤ s ∧ s < te := by
          unfold Data.stdNewline
          dsimp only
          rw [if_pos haft]
          rcases kind_cases d.deq with ⟨c1, c2⟩ | ⟨c1, c2, c3⟩ | ⟨c1, c2, c3⟩
          · cases hl : d.deq.ls with
            | none => exact absurd hl (g3 (Or.inl c1))
            | some y =>
              refine ⟨.lcode, y, ?_, g2 y hl⟩
              rw [if_pos c1]; rfl
          · cases hl : d.deq.ls with
            | none => exact absurd hl (g3 (Or.inr c2))
            | some y =>
              refine ⟨.lcomment, y, ?_, g2 y hl⟩
              rw [if_neg (by simp [c1]), if_pos c2]; rfl
          · refine ⟨.lblank, ts, ?_, hxts, hts⟩
            rw [if_neg (by simp [c1]), if_neg (by simp [c2])]; rfl
        obtain ⟨kk, s, r1, r2, r3⟩ := hrr
        refine ⟨te, ?_⟩
        dsimp only
        rw [r1]
        exact ⟨fun _ => g1, by simp, by simp [Data.flag], fun hq => by (dsimp only at hq; rw [g1] at hq; cases hq), Nat.le_refl _, h.pn,
          fun e h1 h2 => by omega, QTiled.snoc (r := ⟨kk, s, te⟩) g4 px h.ne pe r2 r3⟩

/-- Meaning of the fields `acc`, `off`, `cross` and `accIn`. -/
structure QMark (buf : List Byte) (ts te p : Nat) (a : QA) (d : Data) (x x0 : Nat) : Prop where
  tm : a.acc.isSome = true → ts < te ∧ te + a.off ≤ p + 1 ∧ 1 ≤ a.off
  c0 : a.cross = false → a.acc.isSome = true → x ≤ te ∧ ∀ y, d.ls = some y → y < te
  cI : a.accIn = false → a.acc.isSome = true → ∀ e, x0 < e → e ≤ te → lineEnd buf e = false

/-- The queue opened in the token is given up. -/
theorem QD.giveUp {st : Bool} {M : Machine} {buf : List Byte} {ts te p k : Nat} {a : QA} {d : Data} {x x0 : Nat} {d0 : Data}
    (h : QD st buf ts p a d x x0 d0) (t1 : ts < te) (htp : te ≤ p) (h1 : a.mode = 1)
    (hne : ∀ e, x0 < e → e ≤ te → lineEnd buf e = false)
    (k2 : a.openOk st M k = true) : ∃ x', QStart st buf te x' (M.runEnd d ts te k) := by
  have hpn := h.pn
  obtain ⟨q1, q2, q3, q4, q5⟩ := h.m1 h1
  have hx0 := h.s0.xp
  unfold QA.openOk at k2
  have hde : d.deq.inq = false ∧ (∀ y, d.deq.ls = some y → x0 ≤ y ∧ y < te) ∧ (d.deq.flag → d.deq.ls ≠ none) ∧
      QTiled buf d.deq.out x0 := by
    unfold Data.deq
    rw [if_pos q1]
    simp only [Data.dequeue]
    refine ⟨trivial, fun y hy => ?_, q4, by rw [q2]; exact h.s0.til⟩
    have := q3 y hy
    omega
  have mk : ∀ d', (d' = d.mLs ts ∨ d' = d.mCode ts ∨ d' = d.mComment ts) → QStart st buf te x0 d' := fun d' hd =>
    marked hde hx0 t1 (by omega) hne hd
  unfold Machine.runEnd
  cases hx : M.ends.getD k .none with
  | none => rw [hx] at k2; cases k2
  | ecb => rw [hx] at k2; cases k2
  | cb =>
    rw [hx] at k2
    dsimp only at k2 ⊢
    cases he : a.ent with
    | none => rw [he] at k2; cases k2
    | some e =>
      rw [he] at k2
      dsimp only at k2
      unfold Machine.callback
      rw [h.ent e he]
      cases ho : M.op e with
      | nop => rw [ho] at k2; cases k2
      | newline => rw [ho] at k2; cases k2
      | code => exact ⟨x0, mk _ (Or.inr (Or.inl rfl))⟩
      | comment => exact ⟨x0, mk _ (Or.inr (Or.inr rfl))⟩
      | ls => exact ⟨x0, mk _ (Or.inl rfl)⟩
      | internalNewline =>
        rw [ho] at k2
        dsimp only at k2 ⊢
        have hr : ∃ qu ub, d.stdInternalNewline (te - 1) =
            { d with queue := qu, ub := ub, wlc := false, lcc := false, ls := some (te - 1) } := by
          unfold Data.stdInternalNewline
          dsimp only
          split
          · unfold Data.emit
            rw [q1]
            split
            · exact ⟨d.queue, true, by simp [q1]⟩
            · exact ⟨_, d.ub, by simp [q1]; rfl⟩
          · exact ⟨d.queue, d.ub, by simp⟩
        obtain ⟨qu, ub, hr⟩ := hr
        rw [hr]
        refine ⟨x0, ?_, ?_, by simp, ?_, by omega, by omega, hne, ?_⟩
        · intro hs; rw [hs] at k2; cases k2
        · intro y hy
          simp only [Option.some.injEq] at hy
          omega
        · intro _
          refine ⟨fun y hy => ?_, q4⟩
          have := q3 y hy
          omega
        · show QTiled buf d.out x0
          rw [q2]; exact h.s0.til

theorem QD.back {st : Bool} {M : Machine} {buf : List Byte} {ts te p k : Nat} {a : QA} {d : Data} {x x0 : Nat} {d0 : Data}
    (h : QD st buf ts p a d x x0 d0) (hm : QMark buf ts te p a d x x0) (ha : a.acc = some k)
    (hk : a.backOk st M k = true) : ∃ x', QStart st buf te x' (M.runEnd d ts te k) := by
  have hsome : a.acc.isSome = true := by rw [ha]; rfl
  obtain ⟨t1, t2, t3⟩ := hm.tm hsome
  have htp : te ≤ p := by omega
  have hpn := h.pn
  unfold QA.backOk at hk
  split at hk
  · rename_i h1
    rw [Bool.and_eq_true, Bool.not_eq_true'] at hk
    exact h.giveUp t1 htp (by simpa using h1) (hm.cI hk.1 hsome) hk.2
  · rename_i h1
    simp only [Bool.and_eq_true, Bool.not_eq_true', Bool.or_eq_true, beq_iff_eq] at hk
    obtain ⟨⟨k1, k2⟩, k3⟩ := hk
    obtain ⟨c1, c2⟩ := hm.c0 k1 hsome
    have b : QD st buf ts te { a with pend := false } d x x0 d0 := { h with
      tp := by omega
      pn := by omega
      xp := c1
      ne := fun e h1 h2 => h.ne e h1 (by omega)
      pend := by
        constructor
        · intro hh; cases hh
        · rintro ⟨h1, h2⟩
          rcases k2 with k2 | k2
          · rw [h.ne te h2 (by omega)] at h1; cases h1
          · rw [h.noEnd' k2 te h2 htp] at h1; cases h1
      tsp := by simp
      ls := fun y hy => ⟨(h.ls y hy).1, Nat.le_of_lt (c2 y hy), by simp⟩ }
    exact b.finish t1 c2 k3

/-! ### The byte read -/

theorem QD.char {st : Bool} {buf : List Byte} {ts te p : Nat} {a a' : QA} {d : Data} {x x0 : Nat} {d0 : Data}
    {b : Byte} {k? : Option Nat} {dd : Data}
    (h : QD st buf ts p a d x x0 d0) (hm : QMark buf ts te p a d x x0)
    (hb : buf[p]? = some b)
    (hc : a.char (bk b.toNat) (b.toNat == 13 && condAt buf p dd .crAlone) k? = some a') :
    QD st buf ts (p + 1) a' d x x0 d0 ∧ QMark buf ts (if k?.isSome then p + 1 else te) (p + 1) a' d x x0 ∧
      BCr buf (p + 1) a'.cr ∧ (a'.acc = if k?.isSome then k? else a.acc) := by
  have hpn : p < buf.length := (List.getElem?_eq_some_iff.mp hb).1
  have hle := lineEnd_bk hb dd
  have hcrv : b = 13 → (b.toNat == 13 && condAt buf p dd .crAlone) = condAt buf p dd .crAlone := by
    rintro rfl; rfl
  have hcrb : (b.toNat == 13 && condAt buf p dd .crAlone) = true → b = 13 := by
    intro hh
    rw [Bool.and_eq_true, beq_iff_eq] at hh
    rw [← UInt8.toNat_inj]; exact hh.1
  have hkcr := bk_eq_cr b
  generalize hcv : (b.toNat == 13 && condAt buf p dd .crAlone) = cv at *
  generalize hkk : bk b.toNat = k at *
  unfold QA.char at hc
  split at hc
  · cases hc
  rename_i hp
  have hp : a.pend = false := by simpa using hp
  simp only [Option.some.injEq] at hc
  subst hc
  have hxp := h.xp
  have htp := h.tp
  refine ⟨?_, ⟨?_, ?_, ?_⟩, ⟨?_, ?_⟩, rfl⟩
  · exact { h with
      tp := by omega
      pn := hpn
      xp := by omega
      ne := fun e h1 h2 => h.noEnd' hp e h1 (by omega)
      pend := by
        show BA.isNl k cv = true ↔ _
        rw [hle]
        constructor
        · intro hh; exact ⟨hh, by omega⟩
        · intro hh; exact hh.1
      tsp := fun _ => by omega
      ls := fun y hy => by have := h.ls y hy; exact ⟨this.1, by omega, fun _ => by omega⟩ }
  · cases hk : k?.isSome with
    | true => simp only [if_true]; intro _; omega
    | false =>
      simp only [Bool.false_eq_true, if_false]
      intro ha
      have := hm.tm ha
      omega
  · cases hk : k?.isSome with
    | true =>
      simp only [if_true]
      intro _ _
      exact ⟨by omega, fun y hy => by have := h.ls y hy; omega⟩
    | false =>
      simp only [Bool.false_eq_true, if_false]
      exact hm.c0
  · cases hk : k?.isSome with
    | true =>
      simp only [if_true]
      intro hi _ e h1 h2
      rw [Bool.or_eq_false_iff] at hi
      by_cases he : e = p + 1
      · subst he; rw [hle]; exact hi.2
      · exact h.noEnd' hp e (by rw [(h.inlF hi.1).1]; exact h1) (by omega)
    | false =>
      simp only [Bool.false_eq_true, if_false]
      exact hm.cI
  · intro h1
    dsimp only at h1
    split at h1
    · split at h1
      · rename_i hcv'
        have h13 := hcrb hcv'
        rw [hcrv h13] at hcv'
        simp only [condAt] at hcv'
        cases hn : buf[p + 1]? with
        | none => rw [hn] at hcv'; cases hcv'
        | some b' => rw [hn] at hcv'; exact ⟨b', rfl, by simpa using hcv'⟩
      · cases h1
    · cases h1
  · intro h1
    dsimp only at h1
    split at h1
    · rename_i hk'
      split at h1
      · cases h1
      · rename_i hcv'
        have h13 := hkcr (by simpa using hk')
        rw [hcrv h13] at hcv'
        simp only [condAt] at hcv'
        refine ⟨by omega, by rw [Nat.add_sub_cancel, hb, h13], ?_⟩
        cases hn : buf[p + 1]? with
        | none => exact Or.inl rfl
        | some b' => rw [hn] at hcv'; exact Or.inr (by simpa using hcv')
    · cases h1

/-! ### Steps -/

/-- The static check of a machine, with its table. -/
structure QCert (st : Bool) (M : Machine) where
  dfa : Dfa M.nfa
  tab : List (List QA)
  closed : closed dfa.rows tab QA.init (QA.succ st M) (QA.eofOk st M) = true

/-- What holds inside a token. -/
structure QTok (st : Bool) (buf : List Byte) (c : Cfg) (a : QA) (x x0 : Nat) (d0 : Data) : Prop where
  qd : QD st buf c.ts c.p a c.d x x0 d0
  lt : c.ts < c.p
  strict : ∀ y, c.d.ls = some y → y < c.p
  acc : c.acc = a.acc
  mark : QMark buf c.ts c.te c.p a c.d x x0
  cr : BCr buf c.p a.cr

/-- Invariant of a run. -/
inductive QGood (st : Bool) (T : State → QA → Prop) (buf : List Byte) (c : Cfg) : Prop
  | start (hq : c.q = []) (x : Nat) (h : QStart st buf c.p x c.d)
  | tok (a : QA) (hm : T c.q a) (hq : c.q ≠ []) (x x0 : Nat) (d0 : Data) (h : QTok st buf c a x x0 d0)

/-- The start of a token. -/
theorem QStart.qd {st : Bool} {buf : List Byte} {p x : Nat} {d : Data} (h : QStart st buf p x d) :
    QD st buf p p QA.init d x x d := by
  exact {
    s0 := h
    tp := Nat.le_refl _
    pn := h.pn
    xp := h.xp
    ne := fun e h1 h2 => h.ne e h1 (by omega)
    pend := by
      constructor
      · intro hh; cases hh
      · rintro ⟨h1, h2⟩; rw [h.ne p h2 (Nat.le_refl _)] at h1; cases h1
    tsp := by simp [QA.init]
    ls := fun y hy => by have := h.ls y hy; exact ⟨this.1, by omega, fun _ => this.2⟩
    lsT := by simp [QA.init]
    inlT := by simp [QA.init]
    inlF := fun _ => ⟨rfl, fun y hy => by have := h.ls y hy; omega⟩
    fls := h.fls
    ent := by simp [QA.init]
    md := Or.inl rfl
    m0 := fun _ => ⟨rfl, rfl, rfl, rfl, rfl, rfl⟩
    m1 := by simp [QA.init]
    m2 := by simp [QA.init] }

theorem fallback_queue {st : Bool} {M : Machine} {T : State → QA → Prop} {buf : List Byte} {c c' : Cfg}
    {a : QA} {x x0 : Nat} {d0 : Data} {eof : Bool} (h : QTok st buf c a x x0 d0)
    (hf : a.fallbackOk st M eof (M.nfa.accepts c.q) (M.nfa.leaveActs c.q) = true) (hs : M.fallback c = some c') :
    QGood st T buf c' := by
  unfold QA.fallbackOk at hf
  unfold Machine.fallback at hs
  cases hk : M.nfa.accepts c.q with
  | some k =>
    rw [hk] at hf hs
    dsimp only at hf hs
    simp only [Option.some.injEq] at hs
    subst hs
    rw [Bool.and_eq_true, List.isEmpty_iff] at hf
    rw [hf.1]
    have hf2 := hf.2
    split at hf2
    · rename_i h1
      simp only [Bool.and_eq_true, Bool.not_eq_true'] at hf2
      obtain ⟨⟨g1, g2⟩, g3⟩ := hf2
      obtain ⟨x2, b2⟩ := h.qd.giveUp h.lt (Nat.le_refl _) (by simpa using h1)
        (by rw [← (h.qd.inlF g1).1]; exact h.qd.noEnd' g2) g3
      exact QGood.start rfl x2 b2
    · obtain ⟨x2, b2⟩ := h.qd.finish h.lt h.strict hf2
      exact QGood.start rfl x2 b2
  | none =>
    rw [hk] at hf hs
    dsimp only at hf hs
    cases hc : c.acc with
    | none => rw [hc] at hs; cases hs
    | some k =>
      rw [hc] at hs
      dsimp only at hs
      simp only [Option.some.injEq] at hs
      subst hs
      have hacc := h.acc
      rw [hc] at hacc
      rw [← hacc] at hf
      dsimp only at hf
      obtain ⟨x2, b2⟩ := h.qd.back h.mark hacc.symm hf
      exact QGood.start rfl x2 b2

theorem step_queue {st : Bool} {M : Machine} (C : QCert st M) {buf : List Byte} {c c' : Cfg}
    (h : QGood st (InTab C.dfa.rows C.tab) buf c) (hs : M.step buf c = some c') :
    QGood st (InTab C.dfa.rows C.tab) buf c' := by
  obtain ⟨hin0, hc⟩ := closed_spec C.dfa C.closed
  unfold Machine.step at hs
  cases hb : buf[c.p]? with
  | none =>
    rw [hb] at hs
    dsimp only at hs
    cases h with
    | start hq => rw [hq] at hs; simp at hs
    | tok a hm hq x x0 d0 h =>
      have he : c.q.isEmpty = false := by cases hx : c.q with | nil => exact absurd hx hq | cons _ _ => rfl
      rw [he] at hs
      have := (hc _ _ hm).1
      have hh2 : (a.cr == 1) = false := by
        cases hx : (a.cr == 1) with
        | false => rfl
        | true =>
          obtain ⟨b, hb', _⟩ := h.cr.one (by simpa using hx)
          rw [hb] at hb'; cases hb'
      simp only [QA.eofOk, he, hh2, Bool.false_or] at this
      exact fallback_queue h this (by simpa using hs)
  | some b =>
    rw [hb] at hs
    dsimp only at hs
    cases hdl : M.nfa.delta c.q b.toNat (condAt buf c.p c.d) with
    | none =>
      rw [hdl] at hs
      dsimp only at hs
      cases h with
      | start hq => rw [hq] at hs; simp at hs
      | tok a hm hq x x0 d0 h =>
        have he : c.q.isEmpty = false := by cases hx : c.q with | nil => exact absurd hx hq | cons _ _ => rfl
        rw [he] at hs
        obtain ⟨bb, hbb, r, hr, _⟩ := (hc _ _ hm).2 b (condAt buf c.p c.d)
        simp only [hdl, view, Option.map_none, QA.succ, he, cr_prune h.cr hb, Bool.false_eq_true, if_false] at hr
        split at hr
        · rename_i hf
          exact fallback_queue h hf (by simpa using hs)
        · cases hr
    | some t =>
      obtain ⟨q', as⟩ := t
      rw [hdl] at hs
      dsimp only at hs
      have main : ∀ (a : QA) (ts x x0 : Nat) (d0 : Data), InTab C.dfa.rows C.tab c.q a →
          QD st buf ts c.p a c.d x x0 d0 →
          (if c.q.isEmpty then c.p else c.ts) = ts →
          (if c.q.isEmpty then none else c.acc) = a.acc →
          QMark buf ts c.te c.p a c.d x x0 → BCr buf c.p a.cr →
          QGood st (InTab C.dfa.rows C.tab) buf c' := by
        intro a ts x x0 d0 hmem hqd hets heacc hmark hcr
        obtain ⟨bb, hbb, r, hr, hin⟩ := (hc _ _ hmem).2 b (condAt buf c.p c.d)
        simp only [hdl, view, Option.map_some, QA.succ, cr_prune hcr hb, Bool.false_eq_true, if_false] at hr
        rw [hets, heacc] at hs
        have hlastk : M.nfa.isLast q' = true → (M.nfa.accepts q').isSome = true := by
          unfold Nfa.isLast
          intro hl
          simp only [Bool.and_eq_true] at hl
          exact hl.1.1
        generalize M.nfa.accepts q' = k? at hs hr hlastk
        generalize hte' : (if k?.isSome = true then c.p + 1 else c.te) = te' at hs
        cases hx : a.acts st M as with
        | none => rw [hx] at hr; cases hr
        | some a1 =>
          rw [hx] at hr
          dsimp only at hr
          obtain ⟨x1, b1, m1, f1, n1⟩ := hqd.acts (te := te') hx
          generalize M.acts ts te' (c.d, c.p + 1) as = res at hs b1 m1 n1
          cases hch : a1.char (bk b.toNat) (b.toNat == 13 && condAt buf c.p c.d .crAlone) k? with
          | none => rw [hch] at hr; cases hr
          | some a2 =>
            rw [hch] at hr
            dsimp only at hr
            have mark1 : QMark buf ts c.te c.p a1 res.1 x1 x0 := by
              refine ⟨?_, ?_, ?_⟩
              · rw [f1.acc, f1.off]; exact hmark.tm
              · rcases m1 with ⟨mx, mc, ml⟩ | mc
                · rw [mx, mc, f1.acc]
                  intro g1 g2
                  obtain ⟨g3, g4⟩ := hmark.c0 g1 g2
                  refine ⟨g3, fun y hy => ?_⟩
                  rcases ml y hy with g | g
                  · exact g4 y g
                  · have := (hmark.tm g2).1; omega
                · rw [mc]; simp
              · rw [f1.accIn, f1.acc]; exact hmark.cI
            obtain ⟨b2, e4, e5, e7⟩ := b1.char mark1 hb hch
            have hlt : ts < c.p + 1 := by have := hqd.tp; omega
            have hstr : ∀ y, res.1.ls = some y → y < c.p + 1 := fun y hy => by have := b1.ls y hy; omega
            split at hr
            · rename_i hl
              rw [if_pos hl] at hs
              simp only [Option.some.injEq] at hs
              subst hs
              split at hr
              · rename_i hk
                rw [n1]
                obtain ⟨x2, b3⟩ := b2.finish hlt hstr hk
                exact QGood.start rfl x2 b3
              · cases hr
            · rename_i hl
              rw [if_neg hl] at hs
              simp only [Option.some.injEq] at hs hr
              subst hs
              obtain ⟨q1, as1, hd1, hl1, hne1, hmm⟩ := hin _ hr.symm
              rw [hdl] at hd1
              simp only [Option.some.injEq, Prod.mk.injEq] at hd1
              obtain ⟨rfl, rfl⟩ := hd1
              rw [n1]
              refine QGood.tok a2 hmm hne1 x1 x0 d0 ⟨b2, hlt, hstr, ?_, ?_, e5⟩
              · dsimp only; rw [e7, f1.acc]
              · dsimp only; rw [← hte']; exact e4
      cases h with
      | start hq x h =>
        refine main QA.init c.p x x c.d (by rw [hq]; exact hin0) h.qd ?_ ?_ ?_ ?_
        · rw [hq]; rfl
        · rw [hq]; rfl
        · exact ⟨by simp [QA.init], by simp [QA.init], by simp [QA.init]⟩
        · exact ⟨by simp [QA.init], by simp [QA.init]⟩
      | tok a hm hq x x0 d0 h =>
        have he : c.q.isEmpty = false := by cases hx : c.q with | nil => exact absurd hx hq | cons _ _ => rfl
        refine main a c.ts x x0 d0 hm h.qd ?_ ?_ h.mark h.cr
        · rw [he]; rfl
        · rw [he]; simpa using h.acc

theorem run_queue {st : Bool} {M : Machine} (C : QCert st M) {buf : List Byte} : ∀ (k : Nat) (c : Cfg),
    QGood st (InTab C.dfa.rows C.tab) buf c → QGood st (InTab C.dfa.rows C.tab) buf (M.run buf k c)
  | 0, c, h => h
  | k + 1, c, h => by
    simp only [Machine.run]
    cases hs : M.step buf c with
    | none => exact h
    | some c' => exact run_queue C k c' (step_queue C h hs)

theorem init_queue {st : Bool} (T : State → QA → Prop) (l : Leftover) (buf : List Byte) :
    QGood st T buf (initCfg l) :=
  QGood.start rfl 0 ⟨fun _ => rfl, by simp [initCfg], by simp [initCfg, Data.flag], by simp [initCfg], Nat.le_refl _,
    Nat.zero_le _, fun e h1 h2 => by simp only [initCfg] at h2; omega, .nil⟩

/-- A scanner that has stopped is between two tokens at the end of the buffer. -/
theorem stop_queue {st : Bool} {M : Machine} (C : QCert st M) {buf : List Byte} {c : Cfg} (hb : Plain buf)
    (h : QGood st (InTab C.dfa.rows C.tab) buf c) (hs : M.step buf c = none) :
    ∃ x, QStart st buf buf.length x c.d := by
  obtain ⟨hin0, hc⟩ := closed_spec C.dfa C.closed
  have hfb : ∀ (a : QA) (eof : Bool), c.acc = a.acc → a.fallbackOk st M eof (M.nfa.accepts c.q) (M.nfa.leaveActs c.q) = true →
      M.fallback c = none → eof = true ∧ a.cr = 2 := by
    intro a eof hacc hf hn
    unfold Machine.fallback at hn
    unfold QA.fallbackOk at hf
    cases hk : M.nfa.accepts c.q with
    | some k => rw [hk] at hn; simp at hn
    | none =>
      rw [hk] at hn hf
      dsimp only at hn hf
      cases hca : c.acc with
      | some k => rw [hca] at hn; simp at hn
      | none => rw [← hacc, hca] at hf; simpa using hf
  unfold Machine.step at hs
  cases hbp : buf[c.p]? with
  | none =>
    have hpn := List.getElem?_eq_none_iff.mp hbp
    rw [hbp] at hs
    dsimp only at hs
    cases h with
    | start hq x h =>
      have : c.p = buf.length := by have := h.pn; omega
      exact ⟨x, this ▸ h⟩
    | tok a hm hq x x0 d0 h =>
      have he : c.q.isEmpty = false := by cases hx : c.q with | nil => exact absurd hx hq | cons _ _ => rfl
      rw [he] at hs
      have := (hc _ _ hm).1
      have hh2 : (a.cr == 1) = false := by
        cases hx : (a.cr == 1) with
        | false => rfl
        | true =>
          obtain ⟨b, hb', _⟩ := h.cr.one (by simpa using hx)
          rw [hbp] at hb'; cases hb'
      simp only [QA.eofOk, he, hh2, Bool.false_or] at this
      obtain ⟨_, g2⟩ := hfb a true h.acc this (by simpa using hs)
      obtain ⟨g3, g4, _⟩ := h.cr.two g2
      exfalso
      apply hb.2
      have hpl : c.p = buf.length := by have := h.qd.pn; omega
      rw [List.getLast?_eq_getElem?, ← hpl]; exact g4
  | some b =>
    rw [hbp] at hs
    dsimp only at hs
    cases hdl : M.nfa.delta c.q b.toNat (condAt buf c.p c.d) with
    | some t =>
      rw [hdl] at hs
      dsimp only at hs
      split at hs <;> cases hs
    | none =>
      rw [hdl] at hs
      dsimp only at hs
      exfalso
      cases h with
      | start hq x h =>
        obtain ⟨bb, hbb, r, hr, _⟩ := (hc _ _ (by rw [hq]; exact hin0 : InTab C.dfa.rows C.tab c.q QA.init)).2 b (condAt buf c.p c.d)
        rw [hq] at hdl
        simp only [hq, hdl, view, Option.map_none, QA.succ] at hr
        simp only [QA.init, List.isEmpty_nil, if_true, Bool.false_and, Bool.or_self,
          Bool.false_eq_true, if_false, Nat.reduceBEq] at hr
        split at hr
        · rename_i hk
          have := bk_eq_vt b (by simpa using hk)
          subst this
          exact hb.1 (List.mem_of_getElem? hbp)
        · cases hr
      | tok a hm hq x x0 d0 h =>
        have he : c.q.isEmpty = false := by cases hx : c.q with | nil => exact absurd hx hq | cons _ _ => rfl
        rw [he] at hs
        obtain ⟨bb, hbb, r, hr, _⟩ := (hc _ _ hm).2 b (condAt buf c.p c.d)
        simp only [hdl, view, Option.map_none, QA.succ, he, cr_prune h.cr hbp, Bool.false_eq_true, if_false] at hr
        split at hr
        · rename_i hf
          have := hfb a false h.acc hf (by simpa using hs)
          simp at this
        · cases hr

/-- Every terminated line has one report, in order, that starts in it and ends at its end; after them
there is nothing, or one report for the text after the last line end. -/
def EndsReported (buf : List Byte) (reports : List Rep) : Prop :=
  ∃ main rest, reports = main ++ rest ∧ Each EndsLine (terminated buf) main ∧
    (rest = [] ∨ ∃ r, rest = [r] ∧ EndsLine (lastStart buf, buf.length) r)

theorem ends_exact {st : Bool} {M : Machine} (S : SCert M) (C : QCert st M) (l : Leftover) {buf : List Byte} (hb : Plain buf) :
    EndsReported buf (lineReports M l buf) := by
  obtain ⟨hstop, _⟩ := exec_final S l buf
  have hg : QGood st (InTab C.dfa.rows C.tab) buf (exec M l buf) := run_queue C _ _ (init_queue _ l buf)
  obtain ⟨x, h⟩ := stop_queue C hb hg hstop
  unfold lineReports
  generalize (exec M l buf).d = d at h
  obtain ⟨t1, t2⟩ := h.til.all h.ne
  unfold Data.processLastLine EndsReported
  rw [t2]
  cases hw : (d.wlc || d.lcc) with
  | true =>
    have hf : d.flag := by
      rw [Bool.or_eq_true] at hw; exact hw.symm
    simp only [if_true]
    cases hl : d.ls with
    | none => exact absurd hl (h.fls hf)
    | some y =>
      obtain ⟨y1, y2⟩ := h.ls y hl
      have hout : ∃ k, (if d.lcc = true then d.emit false .lcode (some y) buf.length
          else d.emit false .lcomment (some y) buf.length).out = d.out ++ [⟨k, y, buf.length⟩] := by
        split <;> exact ⟨_, rfl⟩
      obtain ⟨k, hk⟩ := hout
      exact ⟨d.out, _, hk, t1, Or.inr ⟨_, rfl, rfl, y1, y2⟩⟩
  | false =>
    simp only [Bool.false_eq_true, if_false]
    exact ⟨d.out, [], by simp, t1, Or.inl rfl⟩

end Ohcount.Ragel
