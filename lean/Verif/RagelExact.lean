import Verif.RagelLines
import Verif.RagelSafe

/-!
Exact lines: a static check under which every line of the buffer is reported exactly once
with its extent.  Independent switches: `s1`, a line reported as code or comment is
not blank; `s2`, a line that is not blank is reported as code or comment; `tame`, only runs
are considered in which the scanner never goes back over a line end (`Cfg.backs`); `noraw`,
only runs in which no line end is passed inside a token without a callback (`Cfg.raw`).
-/

namespace Ohcount.Ragel

structure Lvl where
  s1 : Bool
  s2 : Bool
  tame : Bool
  noraw : Bool
  deriving DecidableEq, Repr

/-- Abstract value inside a token.  The meaning of each field is `BD` and `BTok` below; in short:
`pend` a line end was read and not reported; `nb` the current line has a byte that is not white
space; `nb2` the same before the last byte; `fl` a flag is set; `owed` a byte that is not white space was read with no flag set;
`ls` `line_start` is set; `inq` `inqueue`; `unt` `line_start`, the flags and the callbacks are as at
the start of the token; `inl` a line was reported inside the token; `cross` the same since the
last match; `fg` a flag was set by the present transition; `fh` number of `fhold`s in it; `ent` the
entity; `acc` the last match; `accNb` `nb` at that time; `off`: `te + off ≤ p + 1`; `held` the
next byte, put back by `fhold`; `hn` it is not white space; `bad` a flag was set by the line end
alone;
`cr` 1: the last byte was a carriage return
not followed by a line feed, 2: it was one followed by a line feed or the end of the buffer. -/
structure BA where
  pend : Bool
  nb : Bool
  nb2 : Bool
  fl : Bool
  owed : Bool
  ls : Bool
  inq : Bool
  unt : Bool
  inl : Bool
  cross : Bool
  fg : Bool
  fh : Nat
  ent : Option Ent
  acc : Option Nat
  accNb : Bool
  off : Nat
  held : Option Nat
  hn : Bool
  bad : Bool
  cr : Nat
  deriving DecidableEq, Repr

namespace BA

def init : BA :=
  { pend := false, nb := false, nb2 := false, fl := false, owed := false, ls := false, inq := false, unt := true, inl := false,
    cross := false, fg := false, fh := 0, ent := none, acc := none, accNb := false, off := 0,
    held := none, hn := false, bad := false, cr := 0 }

def act (L : Lvl) (M : Machine) (a : BA) : Act → Option BA
  | .setEnt e => some { a with ent := some e }
  | .code | .comment => some { a with ls := true, unt := false, fl := true, fg := true }
  | .enqueue => if a.unt then some { a with inq := true } else none
  | .commit => some { a with inq := false, unt := a.unt && !a.inq }
  | .nestRes | .nestInc | .nestDec => some a
  | .fhold _ => some { a with fh := a.fh + 1 }
  | .emb _ => none
  | .cb => match a.ent with
    | none => none
    | some e =>
      if M.op e = .internalNewline && a.pend && a.ls && !a.fg && a.fh == 0 && !a.hn && !a.bad && !(L.s2 && a.owed) then
        some { a with pend := false, nb := false, nb2 := false, fl := false, owed := false, ls := true, unt := false,
                      inl := true, cross := true }
      else none

def acts (L : Lvl) (M : Machine) : BA → List Act → Option BA
  | a, [] => some a
  | a, x :: r => match a.act L M x with | none => none | some a' => acts L M a' r

/-- The token ends here with pattern `k`. -/
def endOk (L : Lvl) (M : Machine) (a : BA) (k : Nat) : Bool :=
  match M.ends.getD k .none with
  | .none => !a.inq && !a.pend && !(L.s2 && a.owed) && a.ls
  | .ecb => false
  | .cb => match a.ent with
    | none => false
    | some e => match M.op e with
      | .newline => a.pend && !a.inq && !(L.s2 && a.owed) && !a.inl
      | .ls => !a.pend && !(L.s2 && a.owed) && !a.inq
      | .code | .comment => !a.pend && (!a.inq || !a.inl) && (!L.s1 || a.nb)
      | .nop => !a.inq && !a.pend && !(L.s2 && a.owed) && a.ls
      | .internalNewline => false

def fallbackOk (L : Lvl) (M : Machine) (eof : Bool) (acc : Option Nat) (l : List Act) (a : BA) : Bool :=
  match acc with
  | some k => match a.acts L M l with
    | none => false
    | some a' => a'.fh == 0 && !a'.fg && !a'.hn && !a'.bad && a'.endOk L M k
  | none => match a.acc with
    | none => eof && a.cr == 2
    | some k =>
      if a.cross then L.tame && a.off != 0
      else decide (1 ≤ a.off) && (a.off == 2 || !a.pend) && (!L.s1 || a.accNb) && { a with pend := false, nb := a.accNb, nb2 := false, hn := false, bad := false }.endOk L M k

def isNl (k : BK) (cr : Bool) : Bool := k == .lf || k == .ff || (k == .cr && cr)
def isEol (k : BK) : Bool := k == .lf || k == .ff || k == .cr
def isNonWs (k : BK) : Bool := k == .other || k == .vt

/-- The effect of the byte read, after the actions.  `some none`: excluded. -/
def char (L : Lvl) (a : BA) (b : Nat) (k : BK) (cr : Bool) (k? : Option Nat) (last : Bool) : Option (Option BA) :=
  if a.pend then (if L.noraw then some none else none)
  else if a.cross && a.off == 0 then none
  else if a.fh == 0 then
    if L.s1 && a.fg && !(a.nb || isNonWs k) && !(L.noraw && isEol k) then none
    else some (some { a with
      owed := (a.owed || isNonWs k) && !a.fl, nb := a.nb || isNonWs k, pend := isNl k cr, fg := false,
      cr := if k == .cr then (if cr then 1 else 2) else 0,
      acc := if k?.isSome then k? else a.acc, off := if k?.isSome then 1 else if a.off == 0 then 1 else 2,
      accNb := if k?.isSome then a.nb || isNonWs k else a.accNb,
      cross := if k?.isSome then false else a.cross, held := none, hn := false,
      bad := (a.bad || (L.s1 && a.fg)) && !(a.nb || isNonWs k),
      nb2 := a.nb })
  else if a.fh == 1 then
    if (L.s1 && a.fg && !(a.nb || isNonWs k)) || a.cross || a.bad then none
    else if last then
      (if L.s1 && a.fg && !a.nb then none
       else some (some { a with owed := a.owed && !a.fl, fg := false, fh := 0 }))
    else some (some { a with
      owed := a.owed && !a.fl, fg := false, fh := 0,
      acc := if k?.isSome then k? else a.acc, off := if k?.isSome then 0 else a.off,
      accNb := if k?.isSome then a.nb || isNonWs k else a.accNb,
      held := if b == 256 then none else some b, hn := !a.nb && isNonWs k, nb2 := false })
  else if a.fh == 2 then
    if k?.isSome || a.fg || (L.s1 && !a.nb2) || a.inl || a.off != 2 || a.hn || a.bad || a.cross || a.acc.isNone then none
    else some (some { a with nb := a.nb2, nb2 := false, off := 1, cr := 0, held := none, fh := 0 })
  else none

def succ (L : Lvl) (M : Machine) : Succ BA := fun st acc l a b k cr v =>
  if (a.cr == 1 && k == .lf) || (a.cr == 2 && k != .lf) || (b != 256 && a.held.isSome && a.held != some b) then
    some none else
  match v with
  | none =>
    if st then (if k == .vt then some none else none)
    else if a.fallbackOk L M false acc l then some none else none
  | some (as, k?, last) =>
    match a.acts L M as with
    | none => none
    | some a1 =>
      match a1.char L b k cr k? last with
      | none => none
      | some none => some none
      | some (some a2) =>
        if last then (if !a2.bad && !a2.hn && a2.endOk L M (k?.getD 0) then some none else none)
        else some (some a2)

def eofOk (L : Lvl) (M : Machine) : EofOk BA := fun st acc l a =>
  st || a.cr == 1 || a.held.isSome || a.fallbackOk L M true acc l

end BA

/-! ### Bytes and line ends -/

theorem byte_beq (b : Byte) (n : Nat) (h : n < 256) : (b == UInt8.ofNat n) = (b.toNat == n) := by
  rw [Bool.eq_iff_iff, beq_iff_eq, beq_iff_eq]
  constructor
  · rintro rfl; simp [Nat.mod_eq_of_lt h]
  · intro hb; rw [← hb]; simp

theorem isInk_bk (b : Byte) : isInk b = BA.isNonWs (bk b.toNat) := by
  have h : ∀ n, n < 256 → isInk (UInt8.ofNat n) = BA.isNonWs (bk n) := by decide +kernel
  have := h b.toNat b.toNat_lt
  simpa using this

theorem lineEnd_bk {buf : List Byte} {p : Nat} {b : Byte} (hb : buf[p]? = some b) (d : Data) :
    lineEnd buf (p + 1) = BA.isNl (bk b.toNat) (b.toNat == 13 && condAt buf p d .crAlone) := by
  simp only [lineEnd, hb, condAt]
  have h : ∀ n, n < 256 → ∀ x : Bool, (UInt8.ofNat n == 10 || UInt8.ofNat n == 12 || (UInt8.ofNat n == 13 && x))
      = BA.isNl (bk n) (n == 13 && x) := by decide +kernel
  cases hn : buf[p + 1]? with
  | none => have := h b.toNat b.toNat_lt false; simpa using this
  | some c => have := h b.toNat b.toNat_lt (c != 10); simpa using this

theorem ink_mono {buf : List Byte} {x y z : Nat} (h : ink buf x y) (hz : y ≤ z) : ink buf x z := by
  obtain ⟨i, b, h1, h2, h3⟩ := h
  exact ⟨i, b, h1, by omega, h3⟩

theorem ink_self {buf : List Byte} {x : Nat} : ¬ ink buf x x := by
  rintro ⟨i, b, h1, h2, _⟩; omega

theorem ink_snoc {buf : List Byte} {x p : Nat} {b : Byte} (hb : buf[p]? = some b) (h : ink buf x (p + 1)) :
    ink buf x p ∨ isInk b = true := by
  obtain ⟨i, b', h1, h2, h3, h4⟩ := h
  by_cases hi : i = p
  · subst hi; rw [hb] at h3; simp only [Option.some.injEq] at h3; subst h3; exact Or.inr h4
  · exact Or.inl ⟨i, b', h1, by omega, h3, h4⟩

theorem ink_at {buf : List Byte} {x p : Nat} {b : Byte} (hb : buf[p]? = some b) (hx : x ≤ p) (h : isInk b = true) :
    ink buf x (p + 1) := ⟨p, b, hx, by omega, hb, h⟩

/-! ### Meaning of the abstract values -/

/-- A flag is set. -/
def Data.flag (d : Data) : Prop := d.lcc = true ∨ d.wlc = true

/-- Between two tokens, at position `p`; `x` is where the first line not yet reported starts. -/
structure BStart (L : Lvl) (buf : List Byte) (p x : Nat) (d : Data) : Prop where
  inq : d.inq = false
  ls : d.ls = some x ∨ (d.ls = none ∧ x = p)
  fls : d.flag → d.ls ≠ none
  xp : x ≤ p
  pn : p ≤ buf.length
  ne : ∀ e, x < e → e ≤ p → lineEnd buf e = false
  s1 : L.s1 = true → d.flag → ink buf x p
  s2 : L.s2 = true → ink buf x p → d.flag
  til : Tiled L.s1 L.s2 buf d.out x

/-- The variables inside a token that started at `ts`, at position `p`; `x` as above, counting
queued reports as made; `x0` and `d0` are `x` and the variables at the start of the token. -/
structure BD (L : Lvl) (buf : List Byte) (ts p : Nat) (a : BA) (d : Data) (x x0 : Nat) (d0 : Data) : Prop where
  st : BStart L buf ts x0 d0
  tp : ts ≤ p
  pn : p ≤ buf.length
  xp : x ≤ p
  ne : noEnd buf x p
  pend : a.pend = true ↔ (lineEnd buf p = true ∧ x < p)
  ls : d.ls = some x ∨ (d.ls = none ∧ x = ts)
  lsT : a.ls = true → d.ls = some x
  fls : d.flag → d.ls ≠ none
  s1 : L.s1 = true → a.fg = false → a.bad = false → d.flag → ink buf x p ∨ a.hn = true
  s2 : L.s2 = true → a.fg = false → a.owed = false → ink buf x p → d.flag
  nb : a.nb = true → ink buf x p
  nb2 : a.nb2 = true → ink buf x (p - 1)
  fl : a.fl = true → d.flag
  fg : a.fg = true → a.fl = true
  hn : a.hn = true → ∃ b, buf[p]? = some b ∧ isInk b = true
  ent : ∀ e, a.ent = some e → d.ent = e
  inq : a.inq = d.inq
  q : d.inq = true → d.lastLs = d0.ls ∧ d.lastLcc = d0.lcc ∧ d.lastWlc = d0.wlc ∧ d.out = d0.out
  unt : a.unt = true → d.ls = d0.ls ∧ d.lcc = d0.lcc ∧ d.wlc = d0.wlc ∧ x = x0 ∧ d.out = d0.out
  inl : a.inl = false → x = x0
  til : Tiled L.s1 L.s2 buf (d.out ++ if d.inq then d.queue else []) x

theorem actCode_flag (d : Data) (ts : Nat) : (d.actCode ts).flag := Or.inl rfl

theorem actComment_flag (d : Data) (ts : Nat) : (d.actComment ts).flag := by
  unfold Data.actComment
  split
  · rename_i h; exact Or.inl h
  · exact Or.inr rfl

/-- `line_start` after `code` or `comment`. -/
theorem actCode_ls {d : Data} {ts x : Nat} (h : d.ls = some x ∨ (d.ls = none ∧ x = ts)) (hf : d.flag → d.ls ≠ none) :
    (d.actCode ts).ls = some x := by
  unfold Data.actCode
  rcases h with h | ⟨h, rfl⟩
  · rw [h]; simp
  · rw [h]
    cases hl : d.lcc with
    | false => simp
    | true => exact absurd h (hf (Or.inl hl))

theorem actComment_ls {d : Data} {ts x : Nat} (h : d.ls = some x ∨ (d.ls = none ∧ x = ts)) (hf : d.flag → d.ls ≠ none) :
    (d.actComment ts).ls = some x := by
  unfold Data.actComment
  split
  · rename_i hl
    rcases h with h | ⟨h, rfl⟩
    · exact h
    · exact absurd h (hf (Or.inl hl))
  · rcases h with h | ⟨h, rfl⟩
    · simp [h]
    · simp [h]

theorem actComment_rest (d : Data) (ts : Nat) : (d.actComment ts).inq = d.inq ∧ (d.actComment ts).out = d.out ∧
    (d.actComment ts).queue = d.queue ∧ (d.actComment ts).ent = d.ent ∧ (d.actComment ts).lastLs = d.lastLs ∧
    (d.actComment ts).lastLcc = d.lastLcc ∧ (d.actComment ts).lastWlc = d.lastWlc := by
  unfold Data.actComment
  split <;> exact ⟨rfl, rfl, rfl, rfl, rfl, rfl, rfl⟩

/-- Fields that the actions of a transition leave alone. -/
structure BFrame (a a' : BA) : Prop where
  acc : a'.acc = a.acc
  accNb : a'.accNb = a.accNb
  off : a'.off = a.off
  held : a'.held = a.held
  hn : a'.hn = a.hn
  bad : a'.bad = a.bad
  cr : a'.cr = a.cr

theorem BFrame.refl (a : BA) : BFrame a a := ⟨rfl, rfl, rfl, rfl, rfl, rfl, rfl⟩
theorem BFrame.trans {a b c : BA} (h : BFrame a b) (h' : BFrame b c) : BFrame a c :=
  ⟨h'.acc.trans h.acc, h'.accNb.trans h.accNb, h'.off.trans h.off, h'.held.trans h.held, h'.hn.trans h.hn,
   h'.bad.trans h.bad, h'.cr.trans h.cr⟩

/-- How `x` moves: not at all, or to `p`, a line end. -/
def BMove (buf : List Byte) (p : Nat) (a a' : BA) (x x' : Nat) : Prop :=
  (x' = x ∧ a'.cross = a.cross) ∨ (x' = p ∧ a'.cross = true ∧ lineEnd buf p = true)

theorem kind_blank (d : Data) : d.kind ≠ .lblank ↔ d.flag := by
  unfold Data.kind Data.flag
  cases d.lcc <;> cases d.wlc <;> simp

theorem BD.act {L : Lvl} {M : Machine} {buf : List Byte} {ts te p np : Nat} {a a' : BA} {d : Data} {x x0 : Nat} {d0 : Data}
    {t : Act} (h : BD L buf ts p a d x x0 d0) (hnp : np = p + 1 - a.fh) (ha : a.act L M t = some a') :
    ∃ x', BD L buf ts p a' (M.act ts te (d, np) t).1 x' x0 d0 ∧ BMove buf p a a' x x' ∧ BFrame a a' ∧
      (M.act ts te (d, np) t).2 = p + 1 - a'.fh ∧ (a'.pend = true → a.pend = true ∧ t ≠ .cb) := by
  cases t with
  | setEnt e =>
    simp only [BA.act, Option.some.injEq] at ha; subst ha
    refine ⟨x, { h with ent := ?_ }, Or.inl ⟨rfl, rfl⟩, ⟨rfl, rfl, rfl, rfl, rfl, rfl, rfl⟩, hnp, fun hp => ⟨hp, by simp⟩⟩
    intro e' he'; simp only [Option.some.injEq] at he'; exact he'
  | code =>
    simp only [BA.act, Option.some.injEq] at ha; subst ha
    refine ⟨x, ?_, Or.inl ⟨rfl, rfl⟩, ⟨rfl, rfl, rfl, rfl, rfl, rfl, rfl⟩, hnp, fun hp => ⟨hp, by simp⟩⟩
    have hl := actCode_ls h.ls h.fls
    exact { h with
      ls := Or.inl hl
      lsT := fun _ => hl
      fls := fun _ => by show (d.actCode ts).ls ≠ none; rw [hl]; simp
      s1 := by simp
      s2 := by simp
      fl := fun _ => actCode_flag d ts
      fg := fun _ => rfl
      unt := by simp }
  | comment =>
    simp only [BA.act, Option.some.injEq] at ha; subst ha
    refine ⟨x, ?_, Or.inl ⟨rfl, rfl⟩, ⟨rfl, rfl, rfl, rfl, rfl, rfl, rfl⟩, hnp, fun hp => ⟨hp, by simp⟩⟩
    have hl := actComment_ls h.ls h.fls
    obtain ⟨r1, r2, r3, r4, r5, r6, r7⟩ := actComment_rest d ts
    exact { h with
      ls := Or.inl hl
      lsT := fun _ => hl
      fls := fun _ => by show (d.actComment ts).ls ≠ none; rw [hl]; simp
      s1 := by simp
      s2 := by simp
      fl := fun _ => actComment_flag d ts
      fg := fun _ => rfl
      unt := by simp
      ent := fun e he => by show (d.actComment ts).ent = e; rw [r4]; exact h.ent e he
      inq := by show a.inq = (d.actComment ts).inq; rw [r1]; exact h.inq
      q := by
        show (d.actComment ts).inq = true → _
        simp only [Machine.act]
        rw [r1, r2, r5, r6, r7]; exact h.q
      til := by simp only [Machine.act, r1, r2, r3]; exact h.til }
  | enqueue =>
    simp only [BA.act] at ha
    split at ha
    · rename_i hu
      simp only [Option.some.injEq] at ha; subst ha
      refine ⟨x, ?_, Or.inl ⟨rfl, rfl⟩, ⟨rfl, rfl, rfl, rfl, rfl, rfl, rfl⟩, hnp, fun hp => ⟨hp, by simp⟩⟩
      obtain ⟨u1, u2, u3, u4, u5⟩ := h.unt hu
      exact { h with
        inq := rfl
        q := fun _ => ⟨u1, u2, u3, u5⟩
        til := by
          simp only [Machine.act, Data.actEnqueue, if_true, List.append_nil]
          rw [u5, u4]; exact h.st.til }
    · cases ha
  | commit =>
    simp only [BA.act, Option.some.injEq] at ha; subst ha
    refine ⟨x, ?_, Or.inl ⟨rfl, rfl⟩, ⟨rfl, rfl, rfl, rfl, rfl, rfl, rfl⟩, hnp, fun hp => ⟨hp, by simp⟩⟩
    simp only [Machine.act, Data.actCommit]
    split
    · rename_i hq
      exact { h with
        inq := rfl
        q := by simp
        unt := by
          intro hu
          have := h.inq
          rw [hq] at this
          simp [this] at hu
        til := by
          have := h.til
          rw [hq] at this
          simpa using this }
    · rename_i hq
      have hq' : d.inq = false := by simpa using hq
      exact { h with
        inq := hq'.symm
        unt := fun hu => h.unt (by simp only [Bool.and_eq_true] at hu; exact hu.1) }
  | nestRes =>
    simp only [BA.act, Option.some.injEq] at ha; subst ha
    exact ⟨x, { h with }, Or.inl ⟨rfl, rfl⟩, BFrame.refl a, hnp, fun hp => ⟨hp, by simp⟩⟩
  | nestInc =>
    simp only [BA.act, Option.some.injEq] at ha; subst ha
    exact ⟨x, { h with }, Or.inl ⟨rfl, rfl⟩, BFrame.refl a, hnp, fun hp => ⟨hp, by simp⟩⟩
  | nestDec =>
    simp only [BA.act, Option.some.injEq] at ha; subst ha
    exact ⟨x, { h with }, Or.inl ⟨rfl, rfl⟩, BFrame.refl a, hnp, fun hp => ⟨hp, by simp⟩⟩
  | emb e => simp [BA.act] at ha
  | fhold i =>
    simp only [BA.act, Option.some.injEq] at ha; subst ha
    refine ⟨x, { h with }, Or.inl ⟨rfl, rfl⟩, ⟨rfl, rfl, rfl, rfl, rfl, rfl, rfl⟩, ?_, fun hp => ⟨hp, by simp⟩⟩
    show np - 1 = p + 1 - (a.fh + 1)
    omega
  | cb =>
    simp only [BA.act] at ha
    cases he : a.ent with
    | none => rw [he] at ha; cases ha
    | some e =>
      rw [he] at ha
      dsimp only at ha
      split at ha
      · rename_i hc
        simp only [Option.some.injEq] at ha; subst ha
        simp only [Bool.and_eq_true, decide_eq_true_eq, Bool.not_eq_true', beq_iff_eq, Bool.and_eq_false_imp] at hc
        obtain ⟨⟨⟨⟨⟨⟨⟨c1, c2⟩, c3⟩, c4⟩, c5⟩, c6⟩, c7⟩, c8⟩ := hc
        have hnp' : np = p + 1 := by omega
        subst hnp'
        have hent := h.ent e he
        have hcb : M.act ts te (d, p + 1) Act.cb = (d.stdInternalNewline p, p + 1) := by
          simp only [Machine.act, Machine.callback, hent, c1, Nat.add_sub_cancel]
        rw [hcb]
        obtain ⟨pe, px⟩ := h.pend.mp c2
        have hls := h.lsT c3
        have hemit : d.stdInternalNewline p =
            { d.emit d.inq d.kind (some x) p with wlc := false, lcc := false, ls := some p } := by
          unfold Data.stdInternalNewline
          rw [hls]
          simp only [Data.after, decide_eq_true_eq, if_pos px]
        have hcov : Covers L.s1 L.s2 buf (x, p) ⟨d.kind, x, p⟩ := by
          refine ⟨rfl, Nat.le_refl _, px, fun _ => rfl, ?_, ?_⟩
          · intro hs hk
            rw [blankLine_iff]
            rcases h.s1 hs c4 c7 ((kind_blank d).mp hk) with h | h
            · exact h
            · rw [c6] at h; cases h
          · intro hs hk
            rw [blankLine_iff] at hk
            exact (kind_blank d).mpr (h.s2 hs c4 (c8 hs) hk)
        have htil : Tiled L.s1 L.s2 buf ((d.out ++ if d.inq then d.queue else []) ++ [⟨d.kind, x, p⟩]) p :=
          Tiled.snoc h.til px h.ne pe hcov
        refine ⟨p, ?_, Or.inr ⟨rfl, rfl, pe⟩, ⟨rfl, rfl, rfl, rfl, rfl, rfl, rfl⟩, hnp, by simp⟩
        rw [hemit]
        have hnf : ¬ ({ d.emit d.inq d.kind (some x) p with wlc := false, lcc := false, ls := some p } : Data).flag := by
          simp [Data.flag]
        exact {
          st := h.st, tp := h.tp, pn := h.pn
          xp := Nat.le_refl _
          ne := fun e h1 h2 => by omega
          pend := by simp
          ls := Or.inl rfl
          lsT := fun _ => rfl
          fls := fun hf => absurd hf hnf
          s1 := fun _ _ _ hf => absurd hf hnf
          s2 := fun _ _ _ hi => absurd hi ink_self
          nb := by simp
          nb2 := by simp
          fl := by simp
          fg := by simp [c4]
          hn := h.hn
          ent := fun e' he' => by
            have h1 : (d.emit d.inq d.kind (some x) p).ent = d.ent := by
              unfold Data.emit; dsimp only; split <;> rfl
            show (d.emit d.inq d.kind (some x) p).ent = e'
            rw [h1]; exact h.ent e' (he.trans he')
          inq := by
            show a.inq = (d.emit d.inq d.kind (some x) p).inq
            rw [h.inq]; unfold Data.emit; dsimp only; split <;> rfl
          q := by
            unfold Data.emit; dsimp only
            cases hq : d.inq with
            | false => simp [hq]
            | true => simp only [if_true]; intro _; exact h.q hq
          unt := by simp
          inl := by simp
          til := by
            unfold Data.emit; dsimp only
            cases hq : d.inq with
            | false => rw [hq] at htil; simpa [hq] using htil
            | true => rw [hq] at htil; simpa [hq] using htil }
      · cases ha

theorem BMove.trans {buf : List Byte} {p : Nat} {a b c : BA} {x y z : Nat} (h : BMove buf p a b x y)
    (h' : BMove buf p b c y z) : BMove buf p a c x z := by
  rcases h' with ⟨h1, h2⟩ | h'
  · rcases h with ⟨g1, g2⟩ | ⟨g1, g2, g3⟩
    · exact Or.inl ⟨h1.trans g1, h2.trans g2⟩
    · exact Or.inr ⟨h1.trans g1, h2.trans g2, g3⟩
  · exact Or.inr h'

theorem BD.acts {L : Lvl} {M : Machine} {buf : List Byte} {ts te p x0 : Nat} {d0 : Data} :
    ∀ {l : List Act} {a a' : BA} {d : Data} {np x : Nat}, BD L buf ts p a d x x0 d0 → np = p + 1 - a.fh →
    a.acts L M l = some a' →
    ∃ x', BD L buf ts p a' (M.acts ts te (d, np) l).1 x' x0 d0 ∧ BMove buf p a a' x x' ∧ BFrame a a' ∧
      (M.acts ts te (d, np) l).2 = p + 1 - a'.fh ∧ (a'.pend = true → a.pend = true ∧ Act.cb ∉ l)
  | [], a, a', d, np, x, h, hnp, ha => by
    simp only [BA.acts, Option.some.injEq] at ha; subst ha
    exact ⟨x, h, Or.inl ⟨rfl, rfl⟩, BFrame.refl a, hnp, fun hp => ⟨hp, by simp⟩⟩
  | t :: r, a, a', d, np, x, h, hnp, ha => by
    simp only [BA.acts] at ha
    cases hx : a.act L M t with
    | none => rw [hx] at ha; cases ha
    | some a1 =>
      rw [hx] at ha
      dsimp only at ha
      obtain ⟨x1, b1, m1, f1, n1, p1⟩ := h.act (te := te) hnp hx
      obtain ⟨x2, b2, m2, f2, n2, p2⟩ := BD.acts (te := te) b1 n1 ha
      refine ⟨x2, b2, m1.trans m2, f1.trans f2, n2, fun hp => ?_⟩
      have := p2 hp
      have h1 := p1 this.1
      refine ⟨h1.1, ?_⟩
      simp only [List.mem_cons, not_or]
      exact ⟨fun hh => h1.2 hh.symm, this.2⟩

/-! ### The end of a token -/

theorem BD.noEnd' {L : Lvl} {buf : List Byte} {ts p : Nat} {a : BA} {d : Data} {x x0 : Nat} {d0 : Data}
    (h : BD L buf ts p a d x x0 d0) (hp : a.pend = false) : ∀ e, x < e → e ≤ p → lineEnd buf e = false := by
  intro e h1 h2
  by_cases he : e = p
  · subst he
    cases hl : lineEnd buf e with
    | false => rfl
    | true => rw [h.pend.mpr ⟨hl, h1⟩] at hp; cases hp
  · exact h.ne e h1 (by omega)

theorem BD.rest {L : Lvl} {buf : List Byte} {ts p : Nat} {a : BA} {d : Data} {x x0 : Nat} {d0 : Data}
    (h : BD L buf ts p a d x x0 d0) (hfg : a.fg = false) (hbad : a.bad = false) (hhn : a.hn = false)
    (hp : a.pend = false) (hq : a.inq = false) (ho : L.s2 = true → a.owed = false) (hl : a.ls = true) :
    BStart L buf p x d := by
  have hq' : d.inq = false := by rw [← h.inq]; exact hq
  refine ⟨hq', Or.inl (h.lsT hl), h.fls, h.xp, h.pn, h.noEnd' hp, ?_, ?_, ?_⟩
  · intro hs hf
    rcases h.s1 hs hfg hbad hf with h' | h'
    · exact h'
    · rw [hhn] at h'; cases h'
  · intro hs; exact h.s2 hs hfg (ho hs)
  · have := h.til
    rw [hq'] at this
    simpa using this

theorem kind_cases (d : Data) : (d.lcc = true ∧ d.kind = .lcode) ∨ (d.lcc = false ∧ d.wlc = true ∧ d.kind = .lcomment) ∨
    (d.lcc = false ∧ d.wlc = false ∧ d.kind = .lblank) := by
  unfold Data.kind; cases d.lcc <;> cases d.wlc <;> simp

/-- After `code` or `comment` at the end of a token. -/
theorem BD.flagged {L : Lvl} {buf : List Byte} {ts p : Nat} {a : BA} {d d' : Data} {x x0 : Nat} {d0 : Data}
    (h : BD L buf ts p a d x x0 d0) (hp : a.pend = false) (hq : a.inq = false ∨ a.inl = false)
    (hn : L.s1 = true → a.nb = true)
    (hd : d' = d.deq.actCode ts ∨ d' = d.deq.actComment ts) : BStart L buf p x d' := by
  have key : (d.deq.ls = some x ∨ (d.deq.ls = none ∧ x = ts)) ∧ (d.deq.flag → d.deq.ls ≠ none) ∧ d.deq.inq = false ∧
      Tiled L.s1 L.s2 buf d.deq.out x := by
    unfold Data.deq
    have ht := h.til
    have hi := h.inq
    cases hdq : d.inq with
    | false =>
      rw [hdq] at ht
      simp only [Bool.false_eq_true, if_false]
      exact ⟨h.ls, h.fls, hdq, by simpa using ht⟩
    | true =>
      simp only [if_true, Data.dequeue]
      obtain ⟨q1, q2, q3, q4⟩ := h.q hdq
      have hx : x = x0 := by
        rcases hq with hq | hq
        · rw [hq, hdq] at hi; cases hi
        · exact h.inl hq
      subst hx
      simp only [Data.flag]
      rw [q1, q2, q3, q4]
      exact ⟨h.st.ls, h.st.fls, trivial, h.st.til⟩
  obtain ⟨k1, k2, k3, k4⟩ := key
  rcases hd with rfl | rfl
  · have hl := actCode_ls k1 k2
    exact ⟨k3, Or.inl hl, fun _ => by rw [hl]; simp, h.xp, h.pn, h.noEnd' hp, fun hs _ => h.nb (hn hs),
      fun _ _ => actCode_flag _ _, k4⟩
  · have hl := actComment_ls k1 k2
    obtain ⟨r1, r2, _⟩ := actComment_rest d.deq ts
    exact ⟨r1.trans k3, Or.inl hl, fun _ => by rw [hl]; simp, h.xp, h.pn, h.noEnd' hp, fun hs _ => h.nb (hn hs),
      fun _ _ => actComment_flag _ _, by rw [r2]; exact k4⟩

theorem BD.finish {L : Lvl} {M : Machine} {buf : List Byte} {ts te k : Nat} {a : BA} {d : Data} {x x0 : Nat} {d0 : Data}
    (h : BD L buf ts te a d x x0 d0) (hfg : a.fg = false) (hbad : a.bad = false) (hhn : a.hn = false)
    (hk : a.endOk L M k = true) : ∃ x', BStart L buf te x' (M.runEnd d ts te k) := by
  unfold BA.endOk at hk
  unfold Machine.runEnd
  cases hx : M.ends.getD k .none with
  | none =>
    rw [hx] at hk
    simp only [Bool.and_eq_true, Bool.not_eq_true', Bool.and_eq_false_imp] at hk
    obtain ⟨⟨⟨k1, k2⟩, k3⟩, k4⟩ := hk
    exact ⟨x, h.rest hfg hbad hhn k2 k1 k3 k4⟩
  | ecb => rw [hx] at hk; cases hk
  | cb =>
    rw [hx] at hk
    dsimp only at hk ⊢
    cases he : a.ent with
    | none => rw [he] at hk; cases hk
    | some e =>
      rw [he] at hk
      dsimp only at hk
      unfold Machine.callback
      rw [h.ent e he]
      cases ho : M.op e with
      | nop =>
        rw [ho] at hk
        simp only [Bool.and_eq_true, Bool.not_eq_true', Bool.and_eq_false_imp] at hk
        obtain ⟨⟨⟨k1, k2⟩, k3⟩, k4⟩ := hk
        exact ⟨x, h.rest hfg hbad hhn k2 k1 k3 k4⟩
      | internalNewline => rw [ho] at hk; cases hk
      | code =>
        rw [ho] at hk
        simp only [Bool.and_eq_true, Bool.not_eq_true', Bool.or_eq_true] at hk
        obtain ⟨⟨k1, k2⟩, k3⟩ := hk
        exact ⟨x, h.flagged k1 k2 (fun hs => by simpa [hs] using k3) (Or.inl rfl)⟩
      | comment =>
        rw [ho] at hk
        simp only [Bool.and_eq_true, Bool.not_eq_true', Bool.or_eq_true] at hk
        obtain ⟨⟨k1, k2⟩, k3⟩ := hk
        exact ⟨x, h.flagged k1 k2 (fun hs => by simpa [hs] using k3) (Or.inr rfl)⟩
      | ls =>
        rw [ho] at hk
        simp only [Bool.and_eq_true, Bool.not_eq_true', Bool.and_eq_false_imp] at hk
        obtain ⟨⟨k1, k2⟩, k3⟩ := hk
        have hq' : d.inq = false := by rw [← h.inq]; exact k3
        have hdeq : d.deq = d := by unfold Data.deq; rw [hq']; rfl
        have hls : (d.mLs ts).ls = some x := by
          unfold Data.mLs
          rw [hdeq]
          rcases h.ls with hl | ⟨hl, rfl⟩
          · simp [hl]
          · simp [hl]
        refine ⟨x, ?_⟩
        have hfl : (d.mLs ts).flag ↔ d.flag := by
          unfold Data.mLs Data.flag; rw [hdeq]
        refine ⟨?_, Or.inl hls, fun _ => by rw [hls]; simp, h.xp, h.pn, h.noEnd' k1, ?_, ?_, ?_⟩
        · unfold Data.mLs; rw [hdeq]; exact hq'
        · intro hs hf
          rcases h.s1 hs hfg hbad (hfl.mp hf) with h' | h'
          · exact h'
          · rw [hhn] at h'; cases h'
        · intro hs hi; exact hfl.mpr (h.s2 hs hfg (k2 hs) hi)
        · have := h.til
          rw [hq'] at this
          unfold Data.mLs; rw [hdeq]
          simpa using this
      | newline =>
        rw [ho] at hk
        simp only [Bool.and_eq_true, Bool.not_eq_true', Bool.and_eq_false_imp] at hk
        obtain ⟨⟨⟨k1, k2⟩, k3⟩, k4⟩ := hk
        have hq' : d.inq = false := by rw [← h.inq]; exact k2
        have hdeq : d.deq = d := by unfold Data.deq; rw [hq']; rfl
        obtain ⟨pe, px⟩ := h.pend.mp k1
        have hx0 := h.inl k4
        subst hx0
        have htil : Tiled L.s1 L.s2 buf d.out x := by
          have := h.til
          rw [hq'] at this
          simpa using this
        have hxts := h.st.xp
        have hts : ts < te := by
          have := h.tp
          by_cases hh : ts = te
          · subst hh
            rw [h.st.ne ts px (Nat.le_refl _)] at pe; cases pe
          · omega
        have haft : Data.after te d.ls = true := by
          rcases h.ls with hl | ⟨hl, _⟩
          · rw [hl]; simp [Data.after, px]
          · rw [hl]; rfl
        have hne : noEnd buf x te := h.ne
        have hs1 : L.s1 = true → d.flag → blankLine buf x te = false := by
          intro hs hf
          rw [blankLine_iff]
          rcases h.s1 hs hfg hbad hf with h' | h'
          · exact h'
          · rw [hhn] at h'; cases h'
        have hs2 : L.s2 = true → blankLine buf x te = false → d.flag := by
          intro hs hb
          rw [blankLine_iff] at hb
          exact h.s2 hs hfg (k3 hs) hb
        have hr : ∃ s, d.stdNewline ts te =
            { d with out := d.out ++ [⟨d.kind, s, te⟩], wlc := false, lcc := false, ls := none } ∧ x ≤ s ∧ s < te ∧
              (d.kind ≠ .lblank → s = x) := by
          unfold Data.stdNewline
          rw [hdeq]
          dsimp only
          rw [if_pos haft]
          rcases kind_cases d with ⟨c1, c2⟩ | ⟨c1, c2, c3⟩ | ⟨c1, c2, c3⟩
          · have hl : d.ls = some x := by
              rcases h.ls with hl | ⟨hl, _⟩
              · exact hl
              · exact absurd hl (h.fls (Or.inl c1))
            refine ⟨x, ?_, Nat.le_refl _, px, fun _ => rfl⟩
            rw [if_pos c1, hl, c2]; rfl
          · have hl : d.ls = some x := by
              rcases h.ls with hl | ⟨hl, _⟩
              · exact hl
              · exact absurd hl (h.fls (Or.inr c2))
            refine ⟨x, ?_, Nat.le_refl _, px, fun _ => rfl⟩
            rw [if_neg (by simp [c1]), if_pos c2, hl, c3]; rfl
          · refine ⟨ts, ?_, hxts, hts, fun hk => absurd c3 hk⟩
            rw [if_neg (by simp [c1]), if_neg (by simp [c2]), c3]; rfl
        obtain ⟨s, r1, r2, r3, r4⟩ := hr
        refine ⟨te, ?_⟩
        have hcov : Covers L.s1 L.s2 buf (x, te) ⟨d.kind, s, te⟩ :=
          ⟨rfl, r2, r3, r4, fun hs hk => hs1 hs ((kind_blank d).mp hk), fun hs hb => (kind_blank d).mpr (hs2 hs hb)⟩
        dsimp only
        rw [r1]
        refine ⟨hq', Or.inr ⟨rfl, rfl⟩, by simp [Data.flag], Nat.le_refl _, h.pn, fun e h1 h2 => by omega,
          by simp [Data.flag], fun _ hi => absurd hi ink_self, Tiled.snoc htil px hne pe hcov⟩

/-- Going back to the last match. -/
theorem BD.back {L : Lvl} {buf : List Byte} {ts te p : Nat} {a : BA} {d : Data} {x x0 : Nat} {d0 : Data}
    (h : BD L buf ts p a d x x0 d0) (hfg : a.fg = false) (ht : ts < te) (hx : x ≤ te) (hte : te + a.off ≤ p + 1)
    (ho : 1 ≤ a.off) (ho2 : a.off = 2 ∨ a.pend = false) (hs : L.s1 = true → a.accNb = true)
    (hnb : a.accNb = true → ink buf x te) :
    BD L buf ts te { a with pend := false, nb := a.accNb, nb2 := false, hn := false, bad := false } d x x0 d0 := by
  have htp : te ≤ p := by omega
  exact { h with
    tp := by omega
    pn := Nat.le_trans htp h.pn
    xp := hx
    ne := fun e h1 h2 => h.ne e h1 (by omega)
    pend := by
      constructor
      · intro hh; cases hh
      · rintro ⟨h1, h2⟩
        rcases ho2 with ho2 | ho2
        · rw [h.ne te h2 (by omega)] at h1; cases h1
        · rw [h.noEnd' ho2 te h2 htp] at h1; cases h1
    s1 := fun h1 _ _ _ => Or.inl (hnb (hs h1))
    s2 := fun h1 _ h3 h4 => h.s2 h1 hfg h3 (ink_mono h4 htp)
    nb := hnb
    nb2 := by simp
    hn := by simp }

/-! ### The byte read -/

/-- Meaning of the fields `acc`, `off`, `cross` and `accNb`. -/
structure BMark (buf : List Byte) (ts te p : Nat) (a : BA) (x : Nat) : Prop where
  tm : a.acc.isSome = true → ts < te ∧ te + a.off ≤ p + 1
  c0 : a.cross = false → a.acc.isSome = true → x ≤ te ∧ (a.accNb = true → ink buf x te)
  c1 : a.cross = true → a.acc.isSome = true → a.off ≠ 0 → te ≤ x ∧ lineEnd buf x = true

/-- Meaning of the field `cr`. -/
structure BCr (buf : List Byte) (p cr : Nat) : Prop where
  one : cr = 1 → ∃ b, buf[p]? = some b ∧ b ≠ 10
  two : cr = 2 → 0 < p ∧ buf[p - 1]? = some 13 ∧ (buf[p]? = none ∨ buf[p]? = some 10)

/-- Meaning of the field `held`. -/
def BHeld (rep : Nat → Nat) (buf : List Byte) (p : Nat) (held : Option Nat) : Prop :=
  ∀ r, held = some r → ∃ b, buf[p]? = some b ∧ rep b.toNat = r

theorem bk_eq_cr (b : Byte) : bk b.toNat = .cr → b = 13 := by
  have h : ∀ n, n < 256 → bk n = .cr → n = 13 := by decide +kernel
  intro hb
  have := h b.toNat b.toNat_lt hb
  rw [← UInt8.toNat_inj]; exact this

theorem bk_eq_lf (b : Byte) : bk b.toNat = .lf ↔ b = 10 := by
  have h : ∀ n, n < 256 → (bk n = .lf ↔ n = 10) := by decide +kernel
  rw [h b.toNat b.toNat_lt, ← UInt8.toNat_inj]; rfl

theorem bk_eq_vt (b : Byte) : bk b.toNat = .vt → b = 11 := by
  have h : ∀ n, n < 256 → bk n = .vt → n = 11 := by decide +kernel
  intro hb
  have := h b.toNat b.toNat_lt hb
  rw [← UInt8.toNat_inj]; exact this

theorem BD.char {L : Lvl} {rep : Nat → Nat} {buf : List Byte} {ts te p : Nat} {a a' : BA} {d : Data} {x x0 : Nat} {d0 : Data}
    {b : Byte} {bb : Nat} {k? : Option Nat} {last : Bool} {dd : Data}
    (h : BD L buf ts p a d x x0 d0) (hm : BMark buf ts te p a x) (hcr : BCr buf p a.cr)
    (hb : buf[p]? = some b) (hbb : bb = 256 ∨ bb = rep b.toNat) (hp : a.pend = false)
    (hlast : last = true → k?.isSome = true)
    (hc : a.char L bb (bk b.toNat) (b.toNat == 13 && condAt buf p dd .crAlone) k? last = some (some a')) :
    BD L buf ts (p + 1 - a.fh) a' d x x0 d0 ∧ a'.fg = false ∧ a'.fh = 0 ∧
      (last = false → BMark buf ts (if k?.isSome then p + 1 else te) (p + 1 - a.fh) a' x ∧
        BCr buf (p + 1 - a.fh) a'.cr ∧ BHeld rep buf (p + 1 - a.fh) a'.held ∧
        (a'.acc = if k?.isSome then k? else a.acc) ∧ (a'.cross = true → x < p + 1 - a.fh)) := by
  have hpn : p < buf.length := (List.getElem?_eq_some_iff.mp hb).1
  have hink := isInk_bk b
  have hle := lineEnd_bk hb dd
  have hcrv : b = 13 → (b.toNat == 13 && condAt buf p dd .crAlone) = condAt buf p dd .crAlone := by
    rintro rfl; rfl
  have hcrb : (b.toNat == 13 && condAt buf p dd .crAlone) = true → b = 13 := by
    intro hh
    rw [Bool.and_eq_true, beq_iff_eq] at hh
    rw [← UInt8.toNat_inj]; exact hh.1
  have hkcr := bk_eq_cr b
  generalize hcv : (b.toNat == 13 && condAt buf p dd .crAlone) = cv at *
  generalize hkk : bk b.toNat = k at *
  unfold BA.char at hc
  rw [hp] at hc
  simp only [Bool.false_eq_true, if_false] at hc
  split at hc
  · cases hc
  rename_i hco
  have hcross : a.cross = true → a.off ≠ 0 := by
    intro h1 h2; rw [h1, h2] at hco; simp at hco
  split at hc
  · -- no `fhold`
    rename_i hfh
    have hfh : a.fh = 0 := by simpa using hfh
    rw [hfh]
    simp only [Nat.sub_zero]
    split at hc
    · cases hc
    · simp only [Option.some.injEq] at hc
      subst hc
      have hnb : (a.nb || BA.isNonWs k) = true → ink buf x (p + 1) := by
        intro hh
        rw [Bool.or_eq_true] at hh
        rcases hh with hh | hh
        · exact ink_mono (h.nb hh) (by omega)
        · exact ink_at hb h.xp (by rw [hink]; exact hh)
      refine ⟨?_, rfl, hfh, ?_⟩
      · exact {
          st := h.st
          tp := by have := h.tp; omega
          pn := hpn
          xp := by have := h.xp; omega
          ne := fun e h1 h2 => h.noEnd' hp e h1 (by omega)
          pend := by
            show BA.isNl k cv = true ↔ _
            rw [hle]
            have := h.xp
            constructor
            · intro hh; exact ⟨hh, by omega⟩
            · intro hh; exact hh.1
          ls := h.ls
          lsT := h.lsT
          fls := h.fls
          s1 := by
            intro hs _ hbad hf
            dsimp only at hbad
            cases hn : (a.nb || BA.isNonWs k) with
            | true => exact Or.inl (hnb hn)
            | false =>
              rw [hn, hs] at hbad
              simp only [Bool.true_and, Bool.not_false, Bool.and_true, Bool.or_eq_false_iff] at hbad
              rcases h.s1 hs hbad.2 hbad.1 hf with h' | h'
              · exact Or.inl (ink_mono h' (by omega))
              · obtain ⟨b', hb', hi⟩ := h.hn h'
                exact Or.inl (ink_at hb' h.xp hi)
          s2 := by
            intro hs _ ho hi
            dsimp only at ho
            cases hfl : a.fl with
            | true => exact h.fl hfl
            | false =>
              rw [hfl] at ho
              simp only [Bool.not_false, Bool.and_true, Bool.or_eq_false_iff] at ho
              have hfg : a.fg = false := by
                cases hg : a.fg with
                | false => rfl
                | true => rw [h.fg hg] at hfl; cases hfl
              rcases ink_snoc hb hi with h' | h'
              · exact h.s2 hs hfg ho.1 h'
              · rw [hink, ho.2] at h'; cases h'
          nb := hnb
          nb2 := fun hh => by rw [Nat.add_sub_cancel]; exact h.nb hh
          fl := h.fl
          fg := by simp
          hn := by simp
          ent := h.ent
          inq := h.inq
          q := h.q
          unt := h.unt
          inl := h.inl
          til := h.til }
      · intro _
        have hxp := h.xp
        refine ⟨⟨?_, ?_, ?_⟩, ⟨?_, ?_⟩, by simp [BHeld], rfl, fun _ => by omega⟩
        · cases hk : k?.isSome with
          | true =>
            simp only [if_true]; intro _
            have := h.tp; omega
          | false =>
            simp only [Bool.false_eq_true, if_false]
            intro ha
            have := hm.tm ha
            split
            · omega
            · rename_i h0; simp only [beq_iff_eq] at h0; omega
        · cases hk : k?.isSome with
          | true =>
            simp only [if_true]; intro _ _
            exact ⟨by omega, hnb⟩
          | false =>
            simp only [Bool.false_eq_true, if_false]
            exact hm.c0
        · cases hk : k?.isSome with
          | true => simp
          | false =>
            simp only [Bool.false_eq_true, if_false]
            intro h1 h2 _
            exact hm.c1 h1 h2 (hcross h1)
        · intro h1
          dsimp only at h1
          split at h1
          · split at h1
            · rename_i hcv'
              have h13 := hcrb hcv'
              rw [hcrv h13] at hcv'
              simp only [condAt] at hcv'
              cases hn : buf[p + 1]? with
              | none => rw [hn] at hcv'; cases hcv'
              | some b' => rw [hn] at hcv'; exact ⟨b', rfl, by simpa using hcv'⟩
            · cases h1
          · cases h1
        · intro h1
          dsimp only at h1
          split at h1
          · rename_i hk'
            split at h1
            · cases h1
            · rename_i hcv'
              have h13 := hkcr (by simpa using hk')
              rw [hcrv h13] at hcv'
              simp only [condAt] at hcv'
              refine ⟨by omega, by rw [Nat.add_sub_cancel, hb, h13], ?_⟩
              cases hn : buf[p + 1]? with
              | none => exact Or.inl rfl
              | some b' => rw [hn] at hcv'; exact Or.inr (by simpa using hcv')
          · cases h1
  split at hc
  · -- one `fhold`
    rename_i hfh
    have hfh : a.fh = 1 := by simpa using hfh
    rw [hfh]
    simp only [Nat.add_sub_cancel]
    split at hc
    · cases hc
    rename_i hg
    simp only [Bool.or_eq_true, not_or, Bool.not_eq_true] at hg
    obtain ⟨⟨g1, g2⟩, g3⟩ := hg
    have hs2 : L.s2 = true → (a.owed && !a.fl) = false → ink buf x p → d.flag := by
      intro hs ho hi
      cases hfl : a.fl with
      | true => exact h.fl hfl
      | false =>
        rw [hfl] at ho
        simp only [Bool.not_false, Bool.and_true] at ho
        have hfg : a.fg = false := by
          cases hg : a.fg with
          | false => rfl
          | true => rw [h.fg hg] at hfl; cases hfl
        exact h.s2 hs hfg ho hi
    cases hl : last with
    | true =>
      rw [hl] at hc
      simp only [if_true] at hc
      split at hc
      · cases hc
      · rename_i hnn
        simp only [Option.some.injEq] at hc
        subst hc
        refine ⟨?_, rfl, rfl, by simp⟩
        exact { h with
          s1 := by
            intro hs _ hbad hf
            cases hfg : a.fg with
            | false => exact h.s1 hs hfg hbad hf
            | true =>
              rw [hs, hfg] at hnn
              exact Or.inl (h.nb (by simpa using hnn))
          pend := by have := h.pend; rw [hp] at this; exact this
          s2 := fun hs _ => hs2 hs
          fg := by simp }
    | false =>
      rw [hl] at hc
      simp only [Bool.false_eq_true, if_false, Option.some.injEq] at hc
      subst hc
      refine ⟨?_, rfl, rfl, fun _ => ⟨⟨?_, ?_, ?_⟩, hcr, ?_, rfl, fun hh => by rw [g2] at hh; cases hh⟩⟩
      · exact { h with
          s1 := by
            intro hs _ hbad hf
            cases hfg : a.fg with
            | false =>
              rcases h.s1 hs hfg hbad hf with h' | h'
              · exact Or.inl h'
              · obtain ⟨b', hb', hi⟩ := h.hn h'
                rw [hb] at hb'; simp only [Option.some.injEq] at hb'; subst hb'
                rw [hink] at hi
                cases hn : a.nb with
                | true => exact Or.inl (h.nb hn)
                | false => right; simp [hi]
            | true =>
              rw [hs, hfg] at g1
              cases hn : a.nb with
              | true => exact Or.inl (h.nb hn)
              | false => rw [hn] at g1; right; simpa using g1
          pend := by have := h.pend; rw [hp] at this; exact this
          s2 := fun hs _ => hs2 hs
          fg := by simp
          nb2 := by simp
          hn := by
            intro hh
            dsimp only at hh
            rw [Bool.and_eq_true] at hh
            exact ⟨b, hb, by rw [hink]; exact hh.2⟩ }
      · cases hk : k?.isSome with
        | true =>
          simp only [if_true]; intro _
          have := h.tp; omega
        | false =>
          simp only [Bool.false_eq_true, if_false]
          exact hm.tm
      · cases hk : k?.isSome with
        | true =>
          simp only [if_true]; intro _ _
          have := h.xp
          refine ⟨by omega, fun hh => ?_⟩
          rw [Bool.or_eq_true] at hh
          rcases hh with hh | hh
          · exact ink_mono (h.nb hh) (by omega)
          · exact ink_at hb h.xp (by rw [hink]; exact hh)
        | false =>
          simp only [Bool.false_eq_true, if_false]
          exact hm.c0
      · intro hh
        dsimp only at hh
        rw [g2] at hh; cases hh
      · intro r hr
        dsimp only at hr
        split at hr
        · cases hr
        · rename_i h256
          simp only [Option.some.injEq] at hr
          refine ⟨b, hb, ?_⟩
          rcases hbb with rfl | rfl
          · simp at h256
          · exact hr
  split at hc
  · -- two `fhold`s
    rename_i hfh
    have hfh : a.fh = 2 := by simpa using hfh
    rw [hfh]
    split at hc
    · cases hc
    rename_i hg
    simp only [Bool.or_eq_true, not_or, Bool.not_eq_true, Option.isNone_eq_false_iff] at hg
    obtain ⟨⟨⟨⟨⟨⟨⟨⟨g1, g2⟩, g3⟩, g4⟩, g5⟩, g6⟩, g7⟩, g8⟩, g9⟩ := hg
    simp only [Option.some.injEq] at hc
    subst hc
    have hoff : a.off = 2 := by simpa using g5
    have hT := hm.tm g9
    have hc0 := hm.c0 g8 g9
    rw [hoff] at hT
    have hp1 : p + 1 - 2 = p - 1 := by omega
    rw [hp1]
    have hll : last = false := by
      cases last with
      | false => rfl
      | true => rw [hlast rfl] at g1; cases g1
    refine ⟨?_, g2, rfl, fun _ => ⟨⟨?_, ?_, ?_⟩, ⟨by simp, by simp⟩, by simp [BHeld], by rw [g1]; rfl, fun hh => by rw [g8] at hh; cases hh⟩⟩
    · exact { h with
        tp := by omega
        pn := by have := h.pn; omega
        xp := by omega
        ne := fun e h1 h2 => h.ne e h1 (by omega)
        pend := by
          dsimp only
          constructor
          · intro hh; cases hh
          · rintro ⟨h1, h2⟩
            rw [h.ne (p - 1) h2 (by omega)] at h1; cases h1
        s1 := fun hs _ _ _ => Or.inl (h.nb2 (by simpa [hs] using g3))
        s2 := fun hs _ ho hi => h.s2 hs g2 ho (ink_mono hi (by omega))
        nb := h.nb2
        nb2 := by simp
        hn := fun hh => by dsimp only at hh; rw [g6] at hh; cases hh }
    · rw [g1]
      simp only [Bool.false_eq_true, if_false]
      intro _; omega
    · rw [g1]
      simp only [Bool.false_eq_true, if_false]
      exact hm.c0
    · intro hh
      dsimp only at hh
      rw [g8] at hh; cases hh
  · cases hc

/-! ### Steps -/

/-- The static check of a machine at a level, with its table. -/
structure BCert (L : Lvl) (M : Machine) where
  dfa : Dfa M.nfa
  tab : List (List BA)
  closed : closed dfa.rows tab BA.init (BA.succ L M) (BA.eofOk L M) = true

/-- The runs considered at a level. -/
structure BHyp (L : Lvl) (buf : List Byte) (c : Cfg) : Prop where
  tame : L.tame = true → ∀ x ∈ c.backs, ∀ e, x.1 ≤ e → e < x.2 → lineEnd buf e = false
  noraw : L.noraw = true → c.raw = []

/-- What holds inside a token. -/
structure BTok (L : Lvl) (rep : Nat → Nat) (buf : List Byte) (c : Cfg) (a : BA) (x x0 : Nat) (d0 : Data) : Prop where
  bd : BD L buf c.ts c.p a c.d x x0 d0
  fg : a.fg = false
  fh : a.fh = 0
  acc : c.acc = a.acc
  mark : BMark buf c.ts c.te c.p a x
  x1 : a.cross = true → x < c.p
  cr : BCr buf c.p a.cr
  held : BHeld rep buf c.p a.held

/-- Invariant of a run. -/
inductive BGood (L : Lvl) (rep : Nat → Nat) (T : State → BA → Prop) (buf : List Byte) (c : Cfg) : Prop
  | start (hq : c.q = []) (x : Nat) (h : BStart L buf c.p x c.d)
  | tok (a : BA) (hm : T c.q a) (hq : c.q ≠ []) (x x0 : Nat) (d0 : Data) (h : BTok L rep buf c a x x0 d0)

/-- The start of a token. -/
theorem BStart.bd {L : Lvl} {buf : List Byte} {p x : Nat} {d : Data} (h : BStart L buf p x d) :
    BD L buf p p BA.init d x x d := by
  exact {
    st := h
    tp := Nat.le_refl _
    pn := h.pn
    xp := h.xp
    ne := fun e h1 h2 => h.ne e h1 (by omega)
    pend := by
      constructor
      · intro hh; cases hh
      · rintro ⟨h1, h2⟩; rw [h.ne p h2 (Nat.le_refl _)] at h1; cases h1
    ls := h.ls
    lsT := by simp [BA.init]
    fls := h.fls
    s1 := fun hs _ _ hf => Or.inl (h.s1 hs hf)
    s2 := fun hs _ _ hi => h.s2 hs hi
    nb := by simp [BA.init]
    nb2 := by simp [BA.init]
    fl := by simp [BA.init]
    fg := by simp [BA.init]
    hn := by simp [BA.init]
    ent := by simp [BA.init]
    inq := h.inq.symm
    q := by rw [h.inq]; simp
    unt := fun _ => ⟨rfl, rfl, rfl, rfl, rfl⟩
    inl := fun _ => rfl
    til := by rw [h.inq]; simpa using h.til }

theorem fallback_exact {L : Lvl} {M : Machine} {rep : Nat → Nat} {T : State → BA → Prop} {buf : List Byte} {c c' : Cfg}
    {a : BA} {x x0 : Nat} {d0 : Data} {eof : Bool} (h : BTok L rep buf c a x x0 d0) (hh : BHyp L buf c')
    (hf : a.fallbackOk L M eof (M.nfa.accepts c.q) (M.nfa.leaveActs c.q) = true) (hs : M.fallback c = some c') :
    BGood L rep T buf c' := by
  unfold BA.fallbackOk at hf
  unfold Machine.fallback at hs
  cases hk : M.nfa.accepts c.q with
  | some k =>
    rw [hk] at hf hs
    dsimp only at hf hs
    simp only [Option.some.injEq] at hs
    subst hs
    cases ha : a.acts L M (M.nfa.leaveActs c.q) with
    | none => rw [ha] at hf; cases hf
    | some a' =>
      rw [ha] at hf
      simp only [Bool.and_eq_true, beq_iff_eq, Bool.not_eq_true'] at hf
      obtain ⟨⟨⟨⟨f1, f2⟩, f3⟩, f4⟩, f5⟩ := hf
      obtain ⟨x1, b1, _⟩ := h.bd.acts (te := c.te) (np := c.p + 1) (by rw [h.fh]; rfl) ha
      obtain ⟨x2, b2⟩ := b1.finish f2 f4 f3 f5
      exact BGood.start rfl x2 b2
  | none =>
    rw [hk] at hf hs
    dsimp only at hf hs
    cases hc : c.acc with
    | none => rw [hc] at hs; cases hs
    | some k =>
      rw [hc] at hs
      dsimp only at hs
      simp only [Option.some.injEq] at hs
      subst hs
      have hacc := h.acc
      rw [hc] at hacc
      rw [← hacc] at hf
      dsimp only at hf
      have hsome : a.acc.isSome = true := by rw [← hacc]; rfl
      cases hcr : a.cross with
      | true =>
        rw [hcr] at hf
        simp only [if_true, Bool.and_eq_true, bne_iff_ne] at hf
        have h2 := h.mark.c1 hcr hsome hf.2
        have := hh.tame hf.1 (c.te, c.p) (by simp) x h2.1 (h.x1 hcr)
        rw [h2.2] at this; cases this
      | false =>
        rw [hcr] at hf
        simp only [Bool.false_eq_true, if_false, Bool.and_eq_true, decide_eq_true_eq, Bool.or_eq_true, beq_iff_eq,
          Bool.not_eq_true'] at hf
        obtain ⟨⟨⟨f1, f2⟩, f3⟩, f4⟩ := hf
        have htm := h.mark.tm hsome
        have hc0 := h.mark.c0 hcr hsome
        have b := h.bd.back h.fg htm.1 hc0.1 htm.2 f1 f2 (fun hs => by simpa [hs] using f3) hc0.2
        obtain ⟨x2, b2⟩ := b.finish h.fg rfl rfl f4
        exact BGood.start rfl x2 b2

theorem cr_prune {buf : List Byte} {p cr : Nat} {b : Byte} (h : BCr buf p cr) (hb : buf[p]? = some b) :
    ((cr == 1 && bk b.toNat == .lf) || (cr == 2 && bk b.toNat != .lf)) = false := by
  rw [Bool.or_eq_false_iff]
  constructor
  · rw [Bool.and_eq_false_imp]
    intro h1
    obtain ⟨b', hb', hne⟩ := h.one (by simpa using h1)
    rw [hb] at hb'; simp only [Option.some.injEq] at hb'; subst hb'
    cases hx : (bk b.toNat == BK.lf) with
    | false => rfl
    | true => exact absurd ((bk_eq_lf b).mp (by simpa using hx)) hne
  · rw [Bool.and_eq_false_imp]
    intro h1
    rcases (h.two (by simpa using h1)).2.2 with h2 | h2
    · rw [hb] at h2; cases h2
    · rw [hb] at h2; simp only [Option.some.injEq] at h2
      have := (bk_eq_lf b).mpr h2
      rw [this]; rfl

theorem held_prune {rep : Nat → Nat} {buf : List Byte} {p bb : Nat} {b : Byte} {held : Option Nat} (h : BHeld rep buf p held)
    (hb : buf[p]? = some b) (hbb : bb = 256 ∨ bb = rep b.toNat) :
    (bb != 256 && held.isSome && held != some bb) = false := by
  rcases hbb with rfl | rfl
  · rfl
  cases hx : held with
  | none => simp
  | some r =>
    obtain ⟨b', hb', hr'⟩ := h r hx
    rw [hb] at hb'; simp only [Option.some.injEq] at hb'; subst hb'
    rw [hr']; simp

/-- The hypothesis holds before a step if it holds after it. -/
theorem BHyp.mono {L : Lvl} {M : Machine} {buf : List Byte} {c c' : Cfg} (hs : M.step buf c = some c')
    (h : BHyp L buf c') : BHyp L buf c := by
  have hfb : ∀ c', M.fallback c = some c' → (∃ y, c'.backs = c.backs ++ y) ∧ c'.raw = c.raw := by
    intro c' hf
    unfold Machine.fallback at hf
    split at hf
    · simp only [Option.some.injEq] at hf; subst hf; exact ⟨⟨[], by simp [Machine.finish]⟩, rfl⟩
    · split at hf
      · simp only [Option.some.injEq] at hf; subst hf; exact ⟨⟨_, rfl⟩, rfl⟩
      · cases hf
  have key : (∃ y, c'.backs = c.backs ++ y) ∧ (∃ y, c'.raw = c.raw ++ y) := by
    unfold Machine.step at hs
    split at hs
    · split at hs
      · cases hs
      · obtain ⟨h1, h2⟩ := hfb _ hs; exact ⟨h1, [], by simp [h2]⟩
    · split at hs
      · split at hs
        · cases hs
        · obtain ⟨h1, h2⟩ := hfb _ hs; exact ⟨h1, [], by simp [h2]⟩
      · dsimp only at hs
        split at hs
        all_goals
          simp only [Option.some.injEq] at hs; subst hs
          refine ⟨⟨[], by simp [Machine.finish]⟩, ?_⟩
          dsimp only [Machine.finish]
          split
          · exact ⟨_, rfl⟩
          · exact ⟨[], by simp⟩
  obtain ⟨⟨y, hy⟩, z, hz⟩ := key
  constructor
  · intro ht w hw
    exact h.tame ht w (by rw [hy]; exact List.mem_append_left _ hw)
  · intro hn
    have := h.noraw hn
    rw [hz] at this
    exact (List.append_eq_nil_iff.mp this).1

theorem step_exact {L : Lvl} {M : Machine} (C : BCert L M) {buf : List Byte} {c c' : Cfg}
    (h : BGood L C.dfa.rep (InTab C.dfa.rows C.tab) buf c) (hs : M.step buf c = some c') (hh : BHyp L buf c') :
    BGood L C.dfa.rep (InTab C.dfa.rows C.tab) buf c' := by
  obtain ⟨hin0, hc⟩ := closed_spec C.dfa C.closed
  unfold Machine.step at hs
  cases hb : buf[c.p]? with
  | none =>
    rw [hb] at hs
    dsimp only at hs
    cases h with
    | start hq => rw [hq] at hs; simp at hs
    | tok a hm hq x x0 d0 h =>
      have he : c.q.isEmpty = false := by cases hx : c.q with | nil => exact absurd hx hq | cons _ _ => rfl
      rw [he] at hs
      have := (hc _ _ hm).1
      have hh1 : a.held.isSome = false := by
        cases hx : a.held with
        | none => rfl
        | some r =>
          obtain ⟨b, hb', _⟩ := h.held r hx
          rw [hb] at hb'; cases hb'
      have hh2 : (a.cr == 1) = false := by
        cases hx : (a.cr == 1) with
        | false => rfl
        | true =>
          obtain ⟨b, hb', _⟩ := h.cr.one (by simpa using hx)
          rw [hb] at hb'; cases hb'
      simp only [BA.eofOk, he, hh1, hh2, Bool.false_or] at this
      exact fallback_exact h hh this (by simpa using hs)
  | some b =>
    rw [hb] at hs
    dsimp only at hs
    cases hdl : M.nfa.delta c.q b.toNat (condAt buf c.p c.d) with
    | none =>
      rw [hdl] at hs
      dsimp only at hs
      cases h with
      | start hq => rw [hq] at hs; simp at hs
      | tok a hm hq x x0 d0 h =>
        have he : c.q.isEmpty = false := by cases hx : c.q with | nil => exact absurd hx hq | cons _ _ => rfl
        rw [he] at hs
        obtain ⟨bb, hbb, r, hr, _⟩ := (hc _ _ hm).2 b (condAt buf c.p c.d)
        simp only [hdl, view, Option.map_none, BA.succ, he, cr_prune h.cr hb, held_prune h.held hb hbb, Bool.or_self,
          Bool.false_eq_true, if_false] at hr
        split at hr
        · rename_i hf
          exact fallback_exact h hh hf (by simpa using hs)
        · cases hr
    | some t =>
      obtain ⟨q', as⟩ := t
      rw [hdl] at hs
      dsimp only at hs
      have main : ∀ (a : BA) (ts x x0 : Nat) (d0 : Data), InTab C.dfa.rows C.tab c.q a →
          BD L buf ts c.p a c.d x x0 d0 → a.fh = 0 →
          (if c.q.isEmpty then c.p else c.ts) = ts →
          (if c.q.isEmpty then none else c.acc) = a.acc →
          BMark buf ts c.te c.p a x → (a.cross = true → x < c.p) → BCr buf c.p a.cr →
          BHeld C.dfa.rep buf c.p a.held →
          (a.pend = true → c.q.isEmpty = false) →
          BGood L C.dfa.rep (InTab C.dfa.rows C.tab) buf c' := by
        intro a ts x x0 d0 hmem hbd hfh hets heacc hmark hx1 hcr hheld hpq
        obtain ⟨bb, hbb, r, hr, hin⟩ := (hc _ _ hmem).2 b (condAt buf c.p c.d)
        simp only [hdl, view, Option.map_some, BA.succ, cr_prune hcr hb, held_prune hheld hb hbb, Bool.or_self,
          Bool.false_eq_true, if_false] at hr
        rw [hets, heacc] at hs
        have hlastk : M.nfa.isLast q' = true → (M.nfa.accepts q').isSome = true := by
          unfold Nfa.isLast
          intro hl
          simp only [Bool.and_eq_true] at hl
          exact hl.1.1
        generalize M.nfa.accepts q' = k? at hs hr hlastk
        generalize hte' : (if k?.isSome = true then c.p + 1 else c.te) = te' at hs
        cases hx : a.acts L M as with
        | none => rw [hx] at hr; cases hr
        | some a1 =>
          rw [hx] at hr
          dsimp only at hr
          obtain ⟨x1, b1, m1, f1, n1, p1⟩ := hbd.acts (te := te') (np := c.p + 1) (by rw [hfh]; rfl) hx
          generalize M.acts ts te' (c.d, c.p + 1) as = res at hs b1 n1
          -- a line end passed without a callback
          have hp1 : L.noraw = true → a1.pend = false := by
            intro hn
            cases hpp : a1.pend with
            | false => rfl
            | true =>
              exfalso
              obtain ⟨g1, g2⟩ := p1 hpp
              have g3 := (hbd.pend.mp g1).1
              have g4 := hpq g1
              have hnr := hh.noraw hn
              have hcond : (!c.q.isEmpty && lineEnd buf c.p && !as.contains Act.cb) = true := by
                rw [g4, g3]; simpa using g2
              split at hs
              all_goals
                simp only [Option.some.injEq] at hs
                subst hs
                simp [Machine.finish, hcond] at hnr
          cases hch : a1.char L bb (bk b.toNat) (b.toNat == 13 && condAt buf c.p c.d .crAlone) k? (M.nfa.isLast q') with
          | none => rw [hch] at hr; cases hr
          | some o =>
            have hpf : a1.pend = false := by
              cases hpp : a1.pend with
              | false => rfl
              | true =>
                cases hnr : L.noraw with
                | true => rw [hp1 hnr] at hpp; cases hpp
                | false =>
                  unfold BA.char at hch
                  rw [hpp, hnr] at hch
                  simp at hch
            cases o with
            | none =>
              exfalso
              unfold BA.char at hch
              rw [hpf] at hch
              simp only [Bool.false_eq_true, if_false] at hch
              repeat' split at hch
              all_goals first | cases hch | (simp at hch)
            | some a2 =>
              rw [hch] at hr
              dsimp only at hr
              have mark1 : BMark buf ts c.te c.p a1 x1 := by
                rcases m1 with ⟨mx, mc⟩ | ⟨mx, mc, ml⟩
                · rw [mx]
                  refine ⟨?_, ?_, ?_⟩
                  · rw [f1.acc, f1.off]; exact hmark.tm
                  · rw [mc, f1.acc, f1.accNb]; exact hmark.c0
                  · rw [mc, f1.acc, f1.off]; exact hmark.c1
                · rw [mx]
                  refine ⟨?_, ?_, ?_⟩
                  · rw [f1.acc, f1.off]; exact hmark.tm
                  · rw [mc]; simp
                  · rw [f1.acc, f1.off]
                    intro _ g1 g2
                    have := hmark.tm g1
                    exact ⟨by omega, ml⟩
              obtain ⟨b2, e1, e2, e3⟩ := b1.char mark1 (by rw [f1.cr]; exact hcr) hb hbb hpf hlastk hch
              rw [← n1] at b2 e3
              split at hr
              · rename_i hl
                rw [if_pos hl] at hs
                simp only [Option.some.injEq] at hs
                subst hs
                split at hr
                · rename_i hk
                  simp only [Bool.and_eq_true, Bool.not_eq_true'] at hk
                  obtain ⟨x2, b3⟩ := b2.finish e1 hk.1.1 hk.1.2 hk.2
                  exact BGood.start rfl x2 b3
                · cases hr
              · rename_i hl
                rw [if_neg hl] at hs
                simp only [Option.some.injEq] at hs hr
                subst hs
                obtain ⟨q1, as1, hd1, hl1, hne1, hmm⟩ := hin _ hr.symm
                rw [hdl] at hd1
                simp only [Option.some.injEq, Prod.mk.injEq] at hd1
                obtain ⟨rfl, rfl⟩ := hd1
                obtain ⟨e4, e5, e6, e7, e8⟩ := e3 (by simpa using hl)
                refine BGood.tok a2 hmm hne1 x1 x0 d0 ⟨b2, e1, e2, ?_, ?_, e8, e5, e6⟩
                · dsimp only; rw [e7, f1.acc]
                · dsimp only; rw [← hte']; exact e4
      cases h with
      | start hq x h =>
        refine main BA.init c.p x x c.d (by rw [hq]; exact hin0) h.bd rfl ?_ ?_ ?_ ?_ ?_ ?_ ?_
        · rw [hq]; rfl
        · rw [hq]; rfl
        · exact ⟨by simp [BA.init], by simp [BA.init], by simp [BA.init]⟩
        · simp [BA.init]
        · exact ⟨by simp [BA.init], by simp [BA.init]⟩
        · simp [BHeld, BA.init]
        · simp [BA.init]
      | tok a hm hq x x0 d0 h =>
        have he : c.q.isEmpty = false := by cases hx : c.q with | nil => exact absurd hx hq | cons _ _ => rfl
        refine main a c.ts x x0 d0 hm h.bd h.fh ?_ ?_ h.mark h.x1 h.cr h.held (fun _ => he)
        · rw [he]; rfl
        · rw [he]; simpa using h.acc

theorem run_exact {L : Lvl} {M : Machine} (C : BCert L M) {buf : List Byte} : ∀ (k : Nat) (c : Cfg),
    BGood L C.dfa.rep (InTab C.dfa.rows C.tab) buf c → BHyp L buf (M.run buf k c) →
    BGood L C.dfa.rep (InTab C.dfa.rows C.tab) buf (M.run buf k c)
  | 0, c, h, _ => h
  | k + 1, c, h, hh => by
    simp only [Machine.run] at hh ⊢
    cases hs : M.step buf c with
    | none => exact h
    | some c' =>
      rw [hs] at hh
      dsimp only at hh ⊢
      refine run_exact C k c' (step_exact C h hs ?_) hh
      clear h hs
      revert c'
      induction k with
      | zero => intro c' hh; exact hh
      | succ k ih =>
        intro c' hh
        simp only [Machine.run] at hh
        cases hs' : M.step buf c' with
        | none => rw [hs'] at hh; exact hh
        | some c'' => rw [hs'] at hh; exact BHyp.mono hs' (ih c'' hh)

theorem init_exact {L : Lvl} (rep : Nat → Nat) (T : State → BA → Prop) (l : Leftover) (buf : List Byte) :
    BGood L rep T buf (initCfg l) :=
  BGood.start rfl 0 ⟨rfl, Or.inr ⟨rfl, rfl⟩, by simp [initCfg, Data.flag], Nat.le_refl _, Nat.zero_le _,
    fun e h1 h2 => by simp only [initCfg] at h2; omega, by simp [initCfg, Data.flag],
    fun _ hi => absurd hi ink_self, .nil⟩

/-- Buffers for which the scanners do not stop early: no vertical tab, and the last byte is not
a carriage return. -/
def Plain (buf : List Byte) : Prop := (11 : Byte) ∉ buf ∧ buf.getLast? ≠ some 13

instance (buf : List Byte) : Decidable (Plain buf) := by unfold Plain; infer_instance

/-- A scanner that has stopped is between two tokens at the end of the buffer. -/
theorem stop_exact {L : Lvl} {M : Machine} (C : BCert L M) {buf : List Byte} {c : Cfg} (hb : Plain buf)
    (h : BGood L C.dfa.rep (InTab C.dfa.rows C.tab) buf c) (hs : M.step buf c = none) :
    ∃ x, BStart L buf buf.length x c.d := by
  obtain ⟨hin0, hc⟩ := closed_spec C.dfa C.closed
  have hfb : ∀ (a : BA) (eof : Bool), c.acc = a.acc → a.fallbackOk L M eof (M.nfa.accepts c.q) (M.nfa.leaveActs c.q) = true →
      M.fallback c = none → eof = true ∧ a.cr = 2 := by
    intro a eof hacc hf hn
    unfold Machine.fallback at hn
    unfold BA.fallbackOk at hf
    cases hk : M.nfa.accepts c.q with
    | some k => rw [hk] at hn; simp at hn
    | none =>
      rw [hk] at hn hf
      dsimp only at hn hf
      cases hca : c.acc with
      | some k => rw [hca] at hn; simp at hn
      | none => rw [← hacc, hca] at hf; simpa using hf
  unfold Machine.step at hs
  cases hbp : buf[c.p]? with
  | none =>
    have hpn := List.getElem?_eq_none_iff.mp hbp
    rw [hbp] at hs
    dsimp only at hs
    cases h with
    | start hq x h =>
      have : c.p = buf.length := by have := h.pn; omega
      exact ⟨x, this ▸ h⟩
    | tok a hm hq x x0 d0 h =>
      have he : c.q.isEmpty = false := by cases hx : c.q with | nil => exact absurd hx hq | cons _ _ => rfl
      rw [he] at hs
      have := (hc _ _ hm).1
      have hh1 : a.held.isSome = false := by
        cases hx : a.held with
        | none => rfl
        | some r =>
          obtain ⟨b, hb', _⟩ := h.held r hx
          rw [hbp] at hb'; cases hb'
      have hh2 : (a.cr == 1) = false := by
        cases hx : (a.cr == 1) with
        | false => rfl
        | true =>
          obtain ⟨b, hb', _⟩ := h.cr.one (by simpa using hx)
          rw [hbp] at hb'; cases hb'
      simp only [BA.eofOk, he, hh1, hh2, Bool.false_or] at this
      obtain ⟨_, g2⟩ := hfb a true h.acc this (by simpa using hs)
      obtain ⟨g3, g4, _⟩ := h.cr.two g2
      exfalso
      apply hb.2
      have hpl : c.p = buf.length := by have := h.bd.pn; omega
      rw [List.getLast?_eq_getElem?, ← hpl]; exact g4
  | some b =>
    rw [hbp] at hs
    dsimp only at hs
    cases hdl : M.nfa.delta c.q b.toNat (condAt buf c.p c.d) with
    | some t =>
      rw [hdl] at hs
      dsimp only at hs
      split at hs <;> cases hs
    | none =>
      rw [hdl] at hs
      dsimp only at hs
      exfalso
      cases h with
      | start hq x h =>
        obtain ⟨bb, hbb, r, hr, _⟩ := (hc _ _ (by rw [hq]; exact hin0 : InTab C.dfa.rows C.tab c.q BA.init)).2 b (condAt buf c.p c.d)
        rw [hq] at hdl
        simp only [hq, hdl, view, Option.map_none, BA.succ] at hr
        simp only [BA.init, List.isEmpty_nil, if_true, Option.isSome_none, Bool.and_false, Bool.false_and, Bool.or_self,
          Bool.false_eq_true, if_false, Nat.reduceBEq] at hr
        split at hr
        · rename_i hk
          have := bk_eq_vt b (by simpa using hk)
          subst this
          exact hb.1 (List.mem_of_getElem? hbp)
        · cases hr
      | tok a hm hq x x0 d0 h =>
        have he : c.q.isEmpty = false := by cases hx : c.q with | nil => exact absurd hx hq | cons _ _ => rfl
        rw [he] at hs
        obtain ⟨bb, hbb, r, hr, _⟩ := (hc _ _ hm).2 b (condAt buf c.p c.d)
        simp only [hdl, view, Option.map_none, BA.succ, he, cr_prune h.cr hbp, held_prune h.held hbp hbb, Bool.or_self,
          Bool.false_eq_true, if_false] at hr
        split at hr
        · rename_i hf
          have := hfb a false h.acc hf (by simpa using hs)
          simp at this
        · cases hr

/-- Every terminated line has its report, in order; after them there is nothing, or one report of
the text after the last line end. -/
def LinesReported (s1 s2 : Bool) (buf : List Byte) (reports : List Rep) : Prop :=
  ∃ main rest, reports = main ++ rest ∧ Each (Covers s1 s2 buf) (terminated buf) main ∧
    (rest = [] ∨ ∃ k, rest = [⟨k, lastStart buf, buf.length⟩] ∧ k ≠ .lblank) ∧
    (s1 = true → rest ≠ [] → blankLine buf (lastStart buf) buf.length = false) ∧
    (s2 = true → blankLine buf (lastStart buf) buf.length = false → rest ≠ [])

theorem lines_exact {L : Lvl} {M : Machine} (S : SCert M) (C : BCert L M) (l : Leftover) {buf : List Byte} (hb : Plain buf)
    (hh : BHyp L buf (exec M l buf)) : LinesReported L.s1 L.s2 buf (lineReports M l buf) := by
  obtain ⟨hstop, _⟩ := exec_final S l buf
  have hg : BGood L C.dfa.rep (InTab C.dfa.rows C.tab) buf (exec M l buf) := run_exact C _ _ (init_exact _ _ l buf) hh
  obtain ⟨x, h⟩ := stop_exact C hb hg hstop
  unfold lineReports
  generalize (exec M l buf).d = d at h
  obtain ⟨t1, t2⟩ := h.til.all h.ne
  unfold Data.processLastLine LinesReported
  rw [t2]
  have hls : d.flag → d.ls = some x := by
    intro hf
    rcases h.ls with hl | ⟨hl, _⟩
    · exact hl
    · exact absurd hl (h.fls hf)
  cases hw : (d.wlc || d.lcc) with
  | true =>
    have hf : d.flag := by
      rw [Bool.or_eq_true] at hw; exact hw.symm
    simp only [if_true]
    rw [hls hf]
    have hout : ∃ k, (if d.lcc = true then d.emit false .lcode (some x) buf.length
        else d.emit false .lcomment (some x) buf.length).out = d.out ++ [⟨k, x, buf.length⟩] ∧ k ≠ .lblank := by
      split
      · exact ⟨_, rfl, by simp⟩
      · exact ⟨_, rfl, by simp⟩
    obtain ⟨k, hk, hk2⟩ := hout
    refine ⟨d.out, _, hk, t1, Or.inr ⟨k, rfl, hk2⟩, ?_, by simp⟩
    intro hs _
    rw [blankLine_iff]
    exact h.s1 hs hf
  | false =>
    simp only [Bool.false_eq_true, if_false]
    refine ⟨d.out, [], by simp, t1, Or.inl rfl, by simp, ?_⟩
    intro hs hbl
    rw [blankLine_iff] at hbl
    have := h.s2 hs hbl
    rw [Bool.or_eq_false_iff] at hw
    rcases this with hf | hf
    · rw [hw.2] at hf; cases hf
    · rw [hw.1] at hf; cases hf

/-- With both switches the reports are exactly the lines due. -/
theorem LinesReported.due {buf : List Byte} {reports : List Rep} (h : LinesReported true true buf reports) :
    Each (Covers true true buf) (dueLines buf) reports := by
  obtain ⟨main, rest, rfl, h1, h2, h3, h4⟩ := h
  unfold dueLines
  cases hbl : blankLine buf (lastStart buf) buf.length with
  | true =>
    simp only [if_true]
    have : rest = [] := by
      rcases h2 with h2 | ⟨k, h2, _⟩
      · exact h2
      · have := h3 rfl (by rw [h2]; simp)
        rw [hbl] at this; cases this
    subst this
    simpa using h1
  | false =>
    simp only [Bool.false_eq_true, if_false]
    have hne := h4 rfl hbl
    rcases h2 with h2 | ⟨k, h2, hk⟩
    · exact absurd h2 hne
    · subst h2
      refine h1.snoc ⟨rfl, Nat.le_refl _, ?_, fun _ => rfl, fun _ _ => hbl, fun _ _ => hk⟩
      rw [blankLine_iff] at hbl
      obtain ⟨i, b, i1, i2, _⟩ := hbl
      show lastStart buf < buf.length
      omega

end Ohcount.Ragel
