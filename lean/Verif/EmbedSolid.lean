import Verif.EmbedSafe
import Verif.RagelSolid

/-!
Where the callbacks of the parsers with embedded languages end: as in RagelSolid.lean, next to a byte that is neither a
blank nor a tab, or at the end of the buffer.
-/

namespace Ohcount.Ragel

/-- `nl`: it is kept track of where the last token ended when `entity` is NEWLINE or INTERNAL_NL; `tl`: and of where the line
starts; `use`: the machines. -/
structure WOpt where
  nl : Bool
  tl : Bool
  use : List Nat

/-- As `WA`, and: `un`: if `entity` is NEWLINE or INTERNAL_NL then the bytes before the token and before `te` are neither blank nor
tab; `fr`: `p` is at the first character of the token; `ta`: `te = p`; `tn`: a line end follows at `te`; `tp`: `te ≤ p`; `lt`:
`line_start` is known to be at `te - 1` or after it. -/
structure XA where
  ent : Option Ent
  n1 : Bool
  n2 : Bool
  te : Bool
  acc : Option Nat
  un : Bool
  fr : Bool
  ta : Bool
  tn : Bool
  tp : Bool
  lt : Bool
  deriving Repr

def Ent.isNl : Ent → Bool
  | .newline | .internalNl => true
  | _ => false

namespace XA

/-! Equality is decided by comparing three numbers. -/

def entCode : Option Ent → Nat
  | none => 0 | some .newline => 1 | some .internalNl => 2 | some .checkBlank => 3 | some (.own i) => i + 4

def accCode : Option Nat → Nat
  | none => 0 | some k => k + 1

def bits (a : XA) : Nat :=
  a.n1.toNat + 2 * (a.n2.toNat + 2 * (a.te.toNat + 2 * (a.un.toNat + 2 * (a.fr.toNat + 2 * (a.ta.toNat + 2 * (a.tn.toNat + 2 * (a.tp.toNat +
    2 * a.lt.toNat)))))))

def same (a b : XA) : Bool :=
  Nat.beq (bits a) (bits b) && Nat.beq (entCode a.ent) (entCode b.ent) && Nat.beq (accCode a.acc) (accCode b.acc)

theorem entCode_inj {x y : Option Ent} (h : entCode x = entCode y) : x = y := by
  rcases x with _ | (_ | _ | _ | i) <;> rcases y with _ | (_ | _ | _ | j) <;> simp [entCode] at h ⊢ <;> omega

theorem accCode_inj {x y : Option Nat} (h : accCode x = accCode y) : x = y := by
  cases x <;> cases y <;> simp [accCode] at h ⊢ <;> omega

theorem toNat_inj {x y : Bool} (h : x.toNat = y.toNat) : x = y := by
  cases x <;> cases y <;> simp at h ⊢

theorem bit_inj {x y : Bool} {m n : Nat} (h : x.toNat + 2 * m = y.toNat + 2 * n) : x = y ∧ m = n := by
  cases x <;> cases y <;> simp only [Bool.toNat_true, Bool.toNat_false] at h <;> first | exact ⟨rfl, by omega⟩ | omega

theorem eq_of_same {a b : XA} (h : same a b = true) : a = b := by
  simp only [same, Bool.and_eq_true, Nat.beq_eq] at h
  obtain ⟨⟨h1, h2⟩, h3⟩ := h
  replace h2 := entCode_inj h2
  replace h3 := accCode_inj h3
  obtain ⟨x1, x2, x3, x4, x5, x6, x7, x8, x9, x10, x11⟩ := a
  obtain ⟨y1, y2, y3, y4, y5, y6, y7, y8, y9, y10, y11⟩ := b
  simp only at h2 h3
  subst h2 h3
  simp only [bits] at h1
  obtain ⟨e1, h1⟩ := bit_inj h1
  obtain ⟨e2, h1⟩ := bit_inj h1
  obtain ⟨e3, h1⟩ := bit_inj h1
  obtain ⟨e4, h1⟩ := bit_inj h1
  obtain ⟨e5, h1⟩ := bit_inj h1
  obtain ⟨e6, h1⟩ := bit_inj h1
  obtain ⟨e7, h1⟩ := bit_inj h1
  obtain ⟨e8, h1⟩ := bit_inj h1
  rw [e1, e2, e3, e4, e5, e6, e7, e8, toNat_inj h1]

theorem same_self (a : XA) : same a a = true := by
  simp [same, Nat.beq_eq]

instance : DecidableEq XA := fun a b =>
  match h : same a b with
  | true => isTrue (eq_of_same h)
  | false => isFalse fun e => by subst e; rw [same_self] at h; cases h

def cb (M : Multi) (a : XA) (l : Nat) : Option XA :=
  match a.ent with
  | some e => match M.op l e with
    | .newline | .embNewline => if a.te then some { a with lt := false } else none
    | .internalNewline | .embInternalNewline => if a.n1 || a.n2 then some { a with lt := a.tp } else none
    | .checkBlank => some { a with n2 := false, un := false, fr := false, tn := false, lt := false }
    | _ => some { a with lt := false }
  | none =>
    if a.un && ((M.sws.getD l []).all fun y => match y.2 with
        | .newline | .embNewline | .internalNewline | .embInternalNewline => y.1.isNl
        | .checkBlank => false
        | _ => true)
    then some { a with lt := false } else none

def act (M : Multi) (a : XA) : Act → Option (XA × Option Jump)
  | .setEnt e => some ({ a with ent := some e, un := false }, none)
  | .code | .comment | .enqueue | .commit | .nestRes | .nestInc | .nestDec => some (a, none)
  | .cb => (a.cb M 0).map (·, none)
  | .fhold _ => some ({ a with n1 := a.n2, n2 := false, un := false, fr := false, ta := false, tp := false }, none)
  | .emb (.cb l) => (a.cb M l).map (·, none)
  | .emb (.sawCall _ m) => some (a, some (.call m))
  | .emb .back => some ({ a with n1 := a.n1 && a.fr, n2 := false, un := a.un && a.fr, ta := a.ta && a.fr, tp := false }, some .ret)
  | .emb .ret => some (a, some .ret)
  | .emb (.goto m) => some (a, some (.goto m))
  | .emb _ => some (a, none)

def acts (M : Multi) : XA → List Act → Option (XA × Option Jump)
  | a, [] => some (a, none)
  | a, x :: r => match a.act M x with
    | none => none
    | some (a', some j) => some (a', some j)
    | some (a', none) => acts M a' r

/-- `entity` is known, and is neither NEWLINE nor INTERNAL_NL. -/
def calm (ent : Option Ent) : Bool := match ent with | some e => !e.isNl | none => false

def target (o : WOpt) : Jump → Bool
  | .call m | .goto m => o.use.contains m
  | .ret => true

def jumpOk (o : WOpt) (a : XA) (j : Jump) : Bool :=
  target o j && (!o.nl || calm a.ent || (a.n1 && (a.te || a.un)))

/-- The end action of pattern `k`; `s1`, `s2` as in `WA.endOk`; `nxt`: a line end or the end of the buffer comes next; `lt` as above. -/
def endOk (M : Multi) (o : WOpt) (m : Nat) (ent : Option Ent) (s1 s2 nxt lt : Bool) (k : Nat) : Bool :=
  (!o.nl || calm ent || s1 || nxt) &&
  match (M.mach m).ends.getD k .none with
  | .none | .ecb _ => true
  | .call m' | .goto m' => o.use.contains m'
  | .cb l => match ent with
    | none => false
    | some e => match M.op l e with
      | .newline | .embNewline => s1
      | .internalNewline | .embInternalNewline => s1 || s2 || lt
      | .checkBlank => false
      | _ => true

def fallbackOk (M : Multi) (o : WOpt) (m : Nat) (acc : Option Nat) (l : List Act) (a : XA) (nxt : Bool) : Bool :=
  match acc with
  | some k => match XA.acts M { a with n1 := false, n2 := a.n1, un := false, fr := false, ta := false, tp := false, lt := false } l with
    | none => false
    | some (a', _) => endOk M o m a'.ent a.n1 a.n2 nxt false k
  | none => match a.acc with | none => true | some k => endOk M o m a.ent a.te false a.tn a.lt k

/-- Between tokens. -/
def init (o : WOpt) : XA := ⟨none, false, false, false, none, o.nl, false, false, false, false, false⟩

def succ (M : Multi) (o : WOpt) (m : Nat) : Succ XA := fun st acc l a _ k _ v =>
  let sc := (M.mach m).scanner
  match v with
  | none => if st || !sc || a.fallbackOk M o m acc l (EA.isNl k) then some none else none
  | some (as, k0, last0) =>
    let k? := if sc then k0 else none
    let last := sc && last0
    let t := k?.isSome && !last
    match XA.acts M ⟨a.ent, k.solid, !k.solid && a.n1, if t then k.solid else a.te, if k?.isSome then k? else a.acc,
      a.un && st && !EA.isNl k && (!t || k.solid), o.nl && (st && sc), o.nl && t, !t && (if a.ta then EA.isNl k else a.tn), o.tl && (t || a.tp), !t && a.lt⟩ as with
    | none => none
    | some (a2, some j) =>
      if a2.jumpOk o j then (match j with | .call _ => if last then some none else some (some (init o)) | _ => some none) else none
    | some (a2, none) =>
      if last then (if endOk M o m a2.ent a2.n1 a2.n2 false false (k?.getD 0) then some none else none)
      else some (some { a2 with un := false, fr := false })

def eofOk (M : Multi) (o : WOpt) (m : Nat) : EofOk XA := fun st acc l a =>
  st || !(M.mach m).scanner || a.fallbackOk M o m acc l true

end XA

/-- The static check of machine `m`, with its table. -/
structure XCert (M : Multi) (o : WOpt) (m : Nat) where
  dfa : Dfa (M.mach m).nfa
  tab : List (List XA)
  closed : closed dfa.rows tab (XA.init o) (XA.succ M o m) (XA.eofOk M o m) = true

/-! ### Actions -/

theorem blankRest_solid : ∀ (l : List Byte) (k : Nat), blankRest l = some k → ∃ b, l[k]? = some b ∧ b ≠ 32 ∧ b ≠ 9
  | [], k, h => by simp [blankRest] at h
  | b :: r, k, h => by
    unfold blankRest at h
    split at h
    · rename_i hb
      simp only [Option.some.injEq] at h
      subst h
      refine ⟨b, rfl, ?_⟩
      simp only [Bool.or_eq_true, beq_iff_eq] at hb
      rcases hb with rfl | rfl <;> decide
    · split at h
      · rename_i hb
        simp only [beq_iff_eq] at hb
        simp only [Option.some.injEq] at h
        split at h
        · rename_i hh
          subst h
          cases r with
          | nil => simp at hh
          | cons c r =>
            simp only [List.head?_cons, beq_iff_eq, Option.some.injEq] at hh
            subst hh
            exact ⟨10, rfl, by decide⟩
        · subst h
          subst hb
          exact ⟨13, rfl, by decide⟩
      · split at h
        · cases hx : blankRest r with
          | none => rw [hx] at h; simp at h
          | some j =>
            rw [hx] at h
            simp only [Option.map_some, Option.some.injEq] at h
            subst h
            exact blankRest_solid r j hx
        · cases h

theorem blankEntry_solid {buf : List Byte} {p p' : Nat} (h : blankEntry buf p = some p') : Solid buf (p' + 1) := by
  unfold blankEntry at h
  cases hx : blankRest (buf.drop (p + 1)) with
  | none => rw [hx] at h; simp at h
  | some k =>
    rw [hx] at h
    simp only [Option.map_some, Option.some.injEq] at h
    obtain ⟨b, hb, h1, h2⟩ := blankRest_solid _ _ hx
    rw [List.getElem?_drop] at hb
    exact ⟨p', b, rfl, by rw [← h, Nat.add_comm k]; exact hb, h1, h2⟩

/-- A line end, or the end of the buffer, comes next. -/
def NextNl (buf : List Byte) (p : Nat) : Prop := ∀ b, buf[p]? = some b → b = 10 ∨ b = 12 ∨ b = 13

/-- The line being read starts at `te - 1` or after it. -/
def LsAt (d : Data) (te : Nat) : Prop := ∃ x, d.ls = some x ∧ te ≤ x + 1

/-- During the actions of a transition. -/
structure XI (buf : List Byte) (ts : Nat) (a : XA) (s : ES) : Prop where
  ends : Ends buf s.x.d
  ent : ∀ e, a.ent = some e → s.x.d.ent = e
  n1 : a.n1 = true → Solid buf s.np
  n2 : a.n2 = true → Solid buf (s.np - 1)
  te : a.te = true → Solid buf s.te
  un : a.un = true → s.x.d.ent.isNl = true → Solid buf (s.np - 1) ∧ Solid buf s.te
  fr : a.fr = true → s.np = ts + 1
  ta : a.ta = true → s.te = s.np
  tn : a.tn = true → NextNl buf s.te
  tp : a.tp = true → s.te ≤ s.np
  lt : a.lt = true → LsAt s.x.d s.te

theorem stdInternalNewline_ent (d : Data) (p : Nat) : (d.stdInternalNewline p).ent = d.ent := by
  unfold Data.stdInternalNewline
  dsimp only
  split
  · exact emit_inq _ _ _ _ _
  · rfl

theorem mCode_ent (d : Data) (ts : Nat) : (d.mCode ts).ent = d.ent := deq_ent d
theorem mLs_ent (d : Data) (ts : Nat) : (d.mLs ts).ent = d.ent := deq_ent d
theorem mComment_ent (d : Data) (ts : Nat) : (d.mComment ts).ent = d.ent := by
  unfold Data.mComment; rw [actComment_ent, deq_ent]

/-- What a callback other than the check for blank lines does. -/
theorem callback_keeps (M : Multi) (buf : List Byte) (l ts : Nat) (s : ES) (h : M.op l s.x.d.ent ≠ .checkBlank) :
    (M.callback buf l ts s).np = s.np ∧ (M.callback buf l ts s).te = s.te ∧ (M.callback buf l ts s).jump = s.jump ∧
    (M.callback buf l ts s).x.d.ent = s.x.d.ent := by
  unfold Multi.callback
  dsimp only
  generalize ho : M.op l s.x.d.ent = op at h
  cases op with
  | ls => exact ⟨rfl, rfl, rfl, mLs_ent _ _⟩
  | code => exact ⟨rfl, rfl, rfl, mCode_ent _ _⟩
  | comment => exact ⟨rfl, rfl, rfl, mComment_ent _ _⟩
  | internalNewline => exact ⟨rfl, rfl, rfl, stdInternalNewline_ent _ _⟩
  | newline => exact ⟨rfl, rfl, rfl, stdNewline_ent _ _ _⟩
  | embInternalNewline => exact ⟨rfl, rfl, rfl, stdInternalNewline_ent _ _⟩
  | embNewline => exact ⟨rfl, rfl, rfl, stdNewline_ent _ _ _⟩
  | checkBlank => exact absurd rfl h
  | nop => exact ⟨rfl, rfl, rfl, rfl⟩

/-- An internal newline, or a newline. -/
def EOp.inl : EOp → Bool
  | .internalNewline | .embInternalNewline => true
  | _ => false
def EOp.enl : EOp → Bool
  | .newline | .embNewline => true
  | _ => false

theorem ecallback_ends {M : Multi} {buf : List Byte} {l ts : Nat} {s : ES} (h : Ends buf s.x.d)
    (h1 : (M.op l s.x.d.ent).enl = true → Firm buf s.te)
    (h2 : (M.op l s.x.d.ent).inl = true → Data.after (s.np - 1) s.x.d.ls = true → Firm buf (s.np - 1)) :
    Ends buf (M.callback buf l ts s).x.d := by
  unfold Multi.callback
  dsimp only
  generalize ho : M.op l s.x.d.ent = op at h1 h2
  cases op with
  | ls => exact h.deq.same _ rfl rfl rfl
  | code => exact h.deq.same _ rfl rfl rfl
  | comment => exact h.deq.actComment ts
  | internalNewline => exact h.stdInternalNewline' (h2 rfl)
  | newline => exact h.stdNewline ts (h1 rfl)
  | embInternalNewline => exact h.stdInternalNewline' (h2 rfl)
  | embNewline => exact h.stdNewline ts (h1 rfl)
  | checkBlank =>
    dsimp only
    cases hb : blankEntry buf (s.np - 1) with
    | none => exact h
    | some p => exact h.stdNewline ts (.inl (blankEntry_solid hb))
  | nop => exact h

theorem callback_inl {M : Multi} {buf : List Byte} {l ts : Nat} {s : ES} (h : (M.op l s.x.d.ent).inl = true) :
    (M.callback buf l ts s).x.d.ls = some (s.np - 1) := by
  unfold Multi.callback
  dsimp only
  generalize M.op l s.x.d.ent = op at h
  cases op <;> first | rfl | cases h

theorem XI.cb {M : Multi} {buf : List Byte} {ts l : Nat} {a a' : XA} {s : ES} (h : XI buf ts a s) (hj : s.jump = none)
    (ha : a.cb M l = some a') : XI buf ts a' (M.callback buf l ts s) ∧ (M.callback buf l ts s).jump = none ∧ a'.acc = a.acc := by
  obtain ⟨h1, h2, h3, h4, h5, h8, h9, h10, h11, h12, h13⟩ := h
  unfold XA.cb at ha
  -- everything but the check for blank lines
  have keep : M.op l s.x.d.ent ≠ .checkBlank →
      ((M.op l s.x.d.ent).enl = true → Firm buf s.te) →
      ((M.op l s.x.d.ent).inl = true → Firm buf (s.np - 1)) → ∀ t : Bool, (t = true → a.tp = true ∧ (M.op l s.x.d.ent).inl = true) →
      XI buf ts { a with lt := t } (M.callback buf l ts s) ∧ (M.callback buf l ts s).jump = none ∧ a.acc = a.acc := by
    intro k1 k2 k3 t k4
    obtain ⟨e1, e2, e3, e4⟩ := callback_keeps M buf l ts s k1
    refine ⟨⟨ecallback_ends h1 k2 (fun g _ => k3 g), ?_, ?_, ?_, ?_, ?_, ?_, ?_, ?_, ?_, ?_⟩, e3.trans hj, rfl⟩
    · rw [e4]; exact h2
    · rw [e1]; exact h3
    · rw [e1]; exact h4
    · rw [e2]; exact h5
    · rw [e1, e2, e4]; exact h8
    · rw [e1]; exact h9
    · rw [e1, e2]; exact h10
    · rw [e2]; exact h11
    · rw [e1, e2]; exact h12
    · intro hl
      obtain ⟨hl, hi⟩ := k4 hl
      refine ⟨s.np - 1, callback_inl hi, ?_⟩
      rw [e2]
      have := h12 hl
      omega
  have near : (a.n1 || a.n2) = true → Firm buf (s.np - 1) := by
    intro hn
    rw [Bool.or_eq_true] at hn
    exact firm_pred (hn.imp h3 h4)
  split at ha
  · rename_i e he
    have hd := h2 e he
    split at ha
    · rename_i ho
      split at ha
      · rename_i ht; injection ha with ha; subst ha
        exact keep (by rw [hd, ho]; nofun) (fun _ => .inl (h5 ht)) (by rw [hd, ho]; nofun) false (by nofun)
      · cases ha
    · rename_i ho
      split at ha
      · rename_i ht; injection ha with ha; subst ha
        exact keep (by rw [hd, ho]; nofun) (fun _ => .inl (h5 ht)) (by rw [hd, ho]; nofun) false (by nofun)
      · cases ha
    · rename_i ho
      split at ha
      · rename_i ht; injection ha with ha; subst ha
        exact keep (by rw [hd, ho]; nofun) (by rw [hd, ho]; nofun) (fun _ => near ht) a.tp (fun g => ⟨g, by rw [hd, ho]; rfl⟩)
      · cases ha
    · rename_i ho
      split at ha
      · rename_i ht; injection ha with ha; subst ha
        exact keep (by rw [hd, ho]; nofun) (by rw [hd, ho]; nofun) (fun _ => near ht) a.tp (fun g => ⟨g, by rw [hd, ho]; rfl⟩)
      · cases ha
    · rename_i ho
      injection ha with ha; subst ha
      cases hb : blankEntry buf (s.np - 1) with
      | none =>
        have hcb : M.callback buf l ts s = s := by simp only [Multi.callback, hd, ho, hb]
        rw [hcb]
        exact ⟨⟨h1, h2, h3, (by nofun), h5, (by nofun), (by nofun), h10, (by nofun), h12, (by nofun)⟩, hj, rfl⟩
      | some p =>
        have hcb : M.callback buf l ts s = { s with x := s.x.upd l (s.x.d.stdNewline ts (p + 1)), np := p + 1, te := p + 1 } := by
          simp only [Multi.callback, hd, ho, hb]
        rw [hcb]
        have hs := blankEntry_solid hb
        exact ⟨⟨h1.stdNewline ts (.inl hs), fun e' he' => (stdNewline_ent _ _ _).trans (h2 e' he'), fun _ => hs, (by nofun), fun _ => hs,
          (by nofun), (by nofun), fun _ => rfl, (by nofun), fun _ => Nat.le_refl _, (by nofun)⟩, hj, rfl⟩
    · rename_i o1 o2 o3 o4 o5
      injection ha with ha; subst ha
      refine keep (hd ▸ o5) ?_ ?_ false (by nofun)
      · rw [hd]; intro g; generalize M.op l e = op at *; cases op <;> simp_all [EOp.enl]
      · rw [hd]; intro g; generalize M.op l e = op at *; cases op <;> simp_all [EOp.inl]
  · split at ha
    · rename_i hh
      injection ha with ha; subst ha
      simp only [Bool.and_eq_true] at hh
      obtain ⟨k1, k2⟩ := hh
      have hop := op_of_all (M := M) (l := l) (e := s.x.d.ent) (f := fun e y => match y with
        | .newline | .embNewline | .internalNewline | .embInternalNewline => e.isNl | .checkBlank => false | _ => true) k2 rfl
      have hu := h8 k1
      refine keep ?_ ?_ ?_ false (by nofun)
      · intro g; rw [g] at hop; cases hop
      · intro g
        generalize M.op l s.x.d.ent = op at *
        cases op <;> first | exact .inl (hu hop).2 | cases g
      · intro g
        generalize M.op l s.x.d.ent = op at *
        cases op <;> first | exact .inl (hu hop).1 | cases g
    · cases ha

theorem XI.same {buf : List Byte} {ts : Nat} {a : XA} {s : ES} (h : XI buf ts a s) (x' : EData) (he : Ends buf x'.d) (h1 : x'.d.ent = s.x.d.ent)
    (h2 : ∀ y, s.x.d.ls = some y → x'.d.ls = some y) (j : Option Jump) : XI buf ts a { s with x := x', jump := j } := by
  obtain ⟨g1, g2, g3, g4, g5, g8, g9, g10, g11, g12, g13⟩ := h
  refine ⟨he, fun e ha => h1.trans (g2 e ha), g3, g4, g5, ?_, g9, g10, g11, g12, fun hl => (g13 hl).imp fun y hy => ⟨h2 y hy.1, hy.2⟩⟩
  intro hu hn
  exact g8 hu (by rw [← h1]; exact hn)

theorem XI.act {M : Multi} {buf : List Byte} {ts : Nat} {a a' : XA} {s : ES} {x : Act} {j : Option Jump} (h : XI buf ts a s)
    (hj : s.jump = none) (ha : a.act M x = some (a', j)) :
    XI buf ts a' (M.act buf ts s x) ∧ (M.act buf ts s x).jump = j ∧ a'.acc = a.acc := by
  have hcb : ∀ l, (a.cb M l).map (·, none) = some (a', j) →
      XI buf ts a' (M.callback buf l ts s) ∧ (M.callback buf l ts s).jump = j ∧ a'.acc = a.acc := by
    intro l hc
    cases hx : a.cb M l with
    | none => rw [hx] at hc; cases hc
    | some a1 =>
      rw [hx] at hc
      simp only [Option.map_some, Option.some.injEq, Prod.mk.injEq] at hc
      obtain ⟨rfl, rfl⟩ := hc
      exact h.cb hj hx
  have he := h.ends
  have commit : Ends buf s.x.actCommit.d ∧ s.x.actCommit.d.ent = s.x.d.ent ∧ s.x.actCommit.d.ls = s.x.d.ls := by
    unfold EData.actCommit
    split
    · exact ⟨he.actCommit, actCommit_ent _, by dsimp only [Data.actCommit]; split <;> rfl⟩
    · exact ⟨he, rfl, rfl⟩
  cases x with
  | setEnt e =>
    simp only [XA.act, Option.some.injEq, Prod.mk.injEq] at ha; obtain ⟨rfl, rfl⟩ := ha
    exact ⟨⟨he.same _ rfl rfl rfl, (fun e' he => by injection he), h.n1, h.n2, h.te, (by nofun), h.fr, h.ta, h.tn, h.tp, h.lt⟩, hj, rfl⟩
  | code =>
    simp only [XA.act, Option.some.injEq, Prod.mk.injEq] at ha; obtain ⟨rfl, rfl⟩ := ha
    exact ⟨h.same { s.x with d := s.x.d.actCode ts } (he.same _ rfl rfl rfl) rfl (fun _ h => by simp [Data.actCode, h]) s.jump, hj, rfl⟩
  | comment =>
    simp only [XA.act, Option.some.injEq, Prod.mk.injEq] at ha; obtain ⟨rfl, rfl⟩ := ha
    exact ⟨h.same { s.x with d := s.x.d.actComment ts } (he.actComment ts) (actComment_ent _ _) (fun _ h => by simp only [Data.actComment]; split <;> simp [h]) s.jump, hj, rfl⟩
  | enqueue =>
    simp only [XA.act, Option.some.injEq, Prod.mk.injEq] at ha; obtain ⟨rfl, rfl⟩ := ha
    exact ⟨h.same s.x.actEnqueue ⟨he.out, fun _ _ hr => nomatch hr⟩ rfl (fun _ h => h) s.jump, hj, rfl⟩
  | commit =>
    simp only [XA.act, Option.some.injEq, Prod.mk.injEq] at ha; obtain ⟨rfl, rfl⟩ := ha
    exact ⟨h.same _ commit.1 commit.2.1 (fun _ h => commit.2.2.trans h) s.jump, hj, rfl⟩
  | nestRes =>
    simp only [XA.act, Option.some.injEq, Prod.mk.injEq] at ha; obtain ⟨rfl, rfl⟩ := ha
    exact ⟨h.same { s.x with d := { s.x.d with nest := 0 } } (he.same _ rfl rfl rfl) rfl (fun _ h => h) s.jump, hj, rfl⟩
  | nestInc =>
    simp only [XA.act, Option.some.injEq, Prod.mk.injEq] at ha; obtain ⟨rfl, rfl⟩ := ha
    exact ⟨h.same { s.x with d := { s.x.d with nest := s.x.d.nest + 1 } } (he.same _ rfl rfl rfl) rfl (fun _ h => h) s.jump, hj, rfl⟩
  | nestDec =>
    simp only [XA.act, Option.some.injEq, Prod.mk.injEq] at ha; obtain ⟨rfl, rfl⟩ := ha
    exact ⟨h.same { s.x with d := { s.x.d with nest := s.x.d.nest - 1 } } (he.same _ rfl rfl rfl) rfl (fun _ h => h) s.jump, hj, rfl⟩
  | cb => exact hcb 0 ha
  | fhold i =>
    simp only [XA.act, Option.some.injEq, Prod.mk.injEq] at ha; obtain ⟨rfl, rfl⟩ := ha
    exact ⟨⟨he, h.ent, h.n2, (by nofun), h.te, (by nofun), (by nofun), (by nofun), h.tn, (by nofun), h.lt⟩, hj, rfl⟩
  | emb e =>
    cases e with
    | cb l => exact hcb l ha
    | outry =>
      simp only [XA.act, Option.some.injEq, Prod.mk.injEq] at ha; obtain ⟨rfl, rfl⟩ := ha
      refine ⟨h.same s.x.outry ?_ ?_ ?_ s.jump, hj, rfl⟩ <;> unfold EData.outry <;> split
      · exact he
      · exact he
      · rfl
      · rfl
      · exact fun _ h => h
      · exact fun _ h => h
    | saw l =>
      simp only [XA.act, Option.some.injEq, Prod.mk.injEq] at ha; obtain ⟨rfl, rfl⟩ := ha
      exact ⟨h.same (s.x.saw l) (he.same _ rfl rfl rfl) rfl (fun _ h => h) s.jump, hj, rfl⟩
    | sawCall l m =>
      simp only [XA.act, Option.some.injEq, Prod.mk.injEq] at ha; obtain ⟨rfl, rfl⟩ := ha
      exact ⟨h.same (s.x.saw l) (he.same _ rfl rfl rfl) rfl (fun _ h => h) _, rfl, rfl⟩
    | back =>
      simp only [XA.act, Option.some.injEq, Prod.mk.injEq] at ha; obtain ⟨rfl, rfl⟩ := ha
      refine ⟨⟨he, h.ent, ?_, (by nofun), h.te, ?_, fun _ => rfl, ?_, h.tn, (by nofun), h.lt⟩, rfl, rfl⟩
      · intro hh
        rw [Bool.and_eq_true] at hh
        have := h.n1 hh.1
        rw [h.fr hh.2] at this
        exact this
      · intro hh hn
        rw [Bool.and_eq_true] at hh
        have := h.un hh.1 hn
        rw [h.fr hh.2] at this
        exact this
      · intro hh
        rw [Bool.and_eq_true] at hh
        exact (h.ta hh.1).trans (h.fr hh.2)
    | ret =>
      simp only [XA.act, Option.some.injEq, Prod.mk.injEq] at ha; obtain ⟨rfl, rfl⟩ := ha
      exact ⟨h.same s.x he rfl (fun _ h => h) _, rfl, rfl⟩
    | goto m =>
      simp only [XA.act, Option.some.injEq, Prod.mk.injEq] at ha; obtain ⟨rfl, rfl⟩ := ha
      exact ⟨h.same s.x he rfl (fun _ h => h) _, rfl, rfl⟩
    | indInc =>
      simp only [XA.act, Option.some.injEq, Prod.mk.injEq] at ha; obtain ⟨rfl, rfl⟩ := ha
      exact ⟨h.same { s.x with d := { s.x.d with ind := s.x.d.ind + 1 } } (he.same _ rfl rfl rfl) rfl (fun _ h => h) s.jump, hj, rfl⟩
    | indRes =>
      simp only [XA.act, Option.some.injEq, Prod.mk.injEq] at ha; obtain ⟨rfl, rfl⟩ := ha
      exact ⟨h.same { s.x with d := { s.x.d with ind := 0 } } (he.same _ rfl rfl rfl) rfl (fun _ h => h) s.jump, hj, rfl⟩
    | indSet =>
      simp only [XA.act, Option.some.injEq, Prod.mk.injEq] at ha; obtain ⟨rfl, rfl⟩ := ha
      exact ⟨h.same { s.x with d := { s.x.d with prior := s.x.d.ind } } (he.same _ rfl rfl rfl) rfl (fun _ h => h) s.jump, hj, rfl⟩
    | eofCommit =>
      simp only [XA.act, Option.some.injEq, Prod.mk.injEq] at ha; obtain ⟨rfl, rfl⟩ := ha
      simp only [Multi.act]
      split
      · exact ⟨h.same _ commit.1 commit.2.1 (fun _ h => commit.2.2.trans h) s.jump, hj, trivial⟩
      · exact ⟨h, hj, trivial⟩

theorem XI.acts {M : Multi} {buf : List Byte} {ts : Nat} : ∀ {l : List Act} {a a' : XA} {s : ES} {j : Option Jump},
    XI buf ts a s → s.jump = none → a.acts M l = some (a', j) →
    XI buf ts a' (M.acts buf ts s l) ∧ (M.acts buf ts s l).jump = j ∧ a'.acc = a.acc
  | [], a, a', s, j, h, hj, ha => by
    simp only [XA.acts, Option.some.injEq, Prod.mk.injEq] at ha; obtain ⟨rfl, rfl⟩ := ha
    exact ⟨h, hj, rfl⟩
  | x :: r, a, a', s, j, h, hj, ha => by
    simp only [XA.acts] at ha
    simp only [Multi.acts]
    cases hx : a.act M x with
    | none => rw [hx] at ha; cases ha
    | some y =>
      obtain ⟨a1, j1⟩ := y
      rw [hx] at ha
      obtain ⟨g1, g2, g3⟩ := h.act hj hx
      cases j1 with
      | some j1 =>
        simp only [Option.some.injEq, Prod.mk.injEq] at ha; obtain ⟨rfl, rfl⟩ := ha
        rw [if_pos (by rw [g2]; rfl)]
        exact ⟨g1, g2, g3⟩
      | none =>
        rw [if_neg (by rw [g2]; simp)]
        obtain ⟨k1, k2, k3⟩ := XI.acts g1 g2 ha
        exact ⟨k1, k2, k3.trans g3⟩

/-! ### Runs -/

/-- Certificates for all machines in use. -/
abbrev XCerts (M : Multi) (o : WOpt) := ∀ m ∈ o.use, XCert M o m

section
variable {M : Multi} {o : WOpt} (C : XCerts M o)

def XIn (m : Nat) (q : State) (a : XA) : Prop := ∃ h : m ∈ o.use, InTab (C m h).dfa.rows (C m h).tab q a

theorem XIn.init {m : Nat} (h : m ∈ o.use) : XIn C m [] (XA.init o) := ⟨h, (closed_spec (C m h).dfa (C m h).closed).1⟩

/-- Between two steps. -/
structure XGood (buf : List Byte) (c : ECfg) (a : XA) : Prop where
  tab : XIn C c.m c.q a
  ends : Ends buf c.x.d
  ent : ∀ e, a.ent = some e → c.x.d.ent = e
  n1 : a.n1 = true → Solid buf c.p
  n2 : a.n2 = true → Solid buf (c.p - 1)
  te : a.te = true → Solid buf c.te
  un : a.un = true → c.x.d.ent.isNl = true → (Solid buf c.p ∧ Solid buf c.te) ∨ NextNl buf c.p
  ta : a.ta = true → c.te = c.p
  tn : a.tn = true → NextNl buf c.te
  tp : a.tp = true → c.te ≤ c.p
  lt : a.lt = true → LsAt c.x.d c.te
  acc : a.acc = c.acc
  start : c.q = [] → c.acc = none
  stack : ∀ y ∈ c.stack, XIn C y.1 y.2 (XA.init o)

/-- Between tokens, or after the return to a plain machine. -/
theorem XGood.again {buf : List Byte} {c : ECfg} (ht : XIn C c.m c.q (XA.init o)) (hc : c.acc = none) (he : Ends buf c.x.d)
    (hu : o.nl = true → c.x.d.ent.isNl = true → (Solid buf c.p ∧ Solid buf c.te) ∨ NextNl buf c.p)
    (hs : ∀ y ∈ c.stack, XIn C y.1 y.2 (XA.init o)) : XGood C buf c (XA.init o) :=
  ⟨ht, he, (by nofun), (by nofun), (by nofun), (by nofun), hu, (by nofun), (by nofun), (by nofun), (by nofun), hc.symm, fun _ => hc, hs⟩

theorem calm_spec {d : Data} {ent : Option Ent} (h : ∀ e, ent = some e → d.ent = e) (hc : XA.calm ent = true) : d.ent.isNl = false := by
  unfold XA.calm at hc
  split at hc
  · rename_i e
    rw [h e rfl]
    simpa using hc
  · cases hc

/-- After a jump. -/
theorem goOn_good {buf : List Byte} {c : ECfg} {q : State} {s : ES} {acc : Option Nat} {j : Jump} (hj : s.jump = some j)
    (hm : XIn C c.m [] (XA.init o)) (hq : (∃ m, j = .call m) → XIn C c.m q (XA.init o)) (ht : XA.target o j = true) (he : Ends buf s.x.d)
    (hu : o.nl = true → s.x.d.ent.isNl = true → (Solid buf s.np ∧ Solid buf s.te) ∨ NextNl buf s.np)
    (hs : ∀ y ∈ c.stack, XIn C y.1 y.2 (XA.init o)) : (c.goOn q s acc).bad = true ∧ Ends buf (c.goOn q s acc).x.d ∨ ∃ a, XGood C buf (c.goOn q s acc) a := by
  unfold ECfg.goOn
  rw [hj]
  cases j with
  | goto m =>
    right
    exact ⟨_, XGood.again C (XIn.init C (by simpa [XA.target] using ht)) rfl he hu hs⟩
  | call m =>
    dsimp only
    split
    · right
      refine ⟨_, XGood.again C (XIn.init C (by simpa [XA.target] using ht)) rfl he hu fun y hy => ?_⟩
      rcases List.mem_cons.mp hy with rfl | hy
      · exact hq ⟨m, rfl⟩
      · exact hs y hy
    · left; exact ⟨rfl, he⟩
  | ret =>
    dsimp only
    split
    · left; exact ⟨rfl, he⟩
    · rename_i m q' r hst
      right
      rw [hst] at hs
      exact ⟨_, XGood.again C (hs (m, q') (List.mem_cons_self ..)) rfl he hu fun y hy => hs y (List.mem_cons_of_mem _ hy)⟩

/-- What a step leads to. -/
def XNext (buf : List Byte) (c : ECfg) : Prop := (c.bad = true ∧ Ends buf c.x.d) ∨ ∃ a, XGood C buf c a

theorem or_true {x y : Bool} (h : (x || y) = true) : x = true ∨ y = true := by rwa [Bool.or_eq_true] at h

/-- The end of a token. -/
theorem finish_solid {buf : List Byte} {c : ECfg} {ts te k : Nat} {x : EData} {ent : Option Ent} {s1 s2 nxt lt : Bool}
    (hm : c.m ∈ o.use) (hs : ∀ y ∈ c.stack, XIn C y.1 y.2 (XA.init o)) (h : Ends buf x.d)
    (he : ∀ e, ent = some e → x.d.ent = e) (h1 : s1 = true → Solid buf te)
    (h2 : s2 = true → Solid buf (te - 1)) (hn : nxt = true → NextNl buf te) (hl : lt = true → LsAt x.d te)
    (hk : XA.endOk M o c.m ent s1 s2 nxt lt k = true) : XNext C buf (M.finish buf c ts x te k) := by
  unfold XA.endOk at hk
  rw [Bool.and_eq_true] at hk
  obtain ⟨hk1, hk2⟩ := hk
  have rest : o.nl = true → x.d.ent.isNl = true → (Solid buf te ∧ Solid buf te) ∨ NextNl buf te := by
    intro ho hx
    rw [ho] at hk1
    simp only [Bool.not_true, Bool.false_or, Bool.or_eq_true] at hk1
    rcases hk1 with (hk1 | hk1) | hk1
    · rw [calm_spec he hk1] at hx; cases hx
    · exact .inl ⟨h1 hk1, h1 hk1⟩
    · exact .inr (hn hk1)
  have hi := XIn.init C hm
  unfold Multi.finish XNext
  generalize (M.mach c.m).ends.getD k .none = en at hk2 ⊢
  cases en with
  | none => right; exact ⟨_, XGood.again C hi rfl h rest hs⟩
  | ecb l => right; exact ⟨_, XGood.again C hi rfl (h.same _ rfl rfl rfl) rest hs⟩
  | call m => exact goOn_good C (j := .call m) rfl hi (fun _ => hi) hk2 h rest hs
  | goto m => exact goOn_good C (j := .goto m) rfl hi (fun _ => hi) hk2 h rest hs
  | cb l =>
    right
    dsimp only at hk2
    split at hk2
    · cases hk2
    · rename_i e
      have hd := he e rfl
      have hnb : M.op l x.d.ent ≠ .checkBlank := by
        intro g; rw [hd] at g; rw [g] at hk2; cases hk2
      obtain ⟨e1, e2, e3, e4⟩ := callback_keeps M buf l ts { x := x, np := te, te := te } hnb
      have hE : Ends buf (M.callback buf l ts { x := x, np := te, te := te }).x.d := by
        refine ecallback_ends (s := { x := x, np := te, te := te }) h (fun g => ?_) (fun g haft => ?_)
        · dsimp only at g ⊢
          rw [hd] at g
          generalize M.op l e = op at g hk2
          cases op <;> first | exact .inl (h1 hk2) | cases g
        · dsimp only at g haft ⊢
          rw [hd] at g
          have : (s1 || s2 || lt) = true := by
            generalize M.op l e = op at g hk2
            cases op <;> first | exact hk2 | cases g
          rcases or_true this with this | this
          · exact firm_pred ((or_true this).imp h1 h2)
          · obtain ⟨y, hy1, hy2⟩ := hl this
            rw [hy1] at haft
            simp only [Data.after, decide_eq_true_eq] at haft
            omega
      refine ⟨XA.init o, ?_⟩
      unfold ECfg.goOn Multi.runEnd
      rw [e3]
      refine XGood.again C hi rfl hE ?_ hs
      dsimp only
      rw [e1, e2, e4]
      exact rest

theorem efallback_solid {buf : List Byte} {c c' : ECfg} {a : XA} {nxt : Bool} (h : XGood C buf c a)
    (hn : nxt = true → NextNl buf c.p)
    (hf : a.fallbackOk M o c.m ((M.mach c.m).nfa.accepts c.q) ((M.mach c.m).nfa.leaveActs c.q) nxt = true)
    (hs : M.fallback buf c = some c') : XNext C buf c' := by
  obtain ⟨hm, _⟩ := h.tab
  unfold Multi.fallback at hs
  unfold XA.fallbackOk at hf
  dsimp only at hs
  split at hs
  · rename_i k hk
    rw [hk] at hf
    dsimp only at hf
    simp only [Option.some.injEq] at hs
    subst hs
    split at hf
    · cases hf
    · rename_i a' j ha
      obtain ⟨g, _, _⟩ := XI.acts (M := M) (buf := buf) (ts := c.ts) (s := { x := c.x, np := c.p + 1, te := c.te })
        (a := { a with n1 := false, n2 := a.n1, un := false, fr := false, ta := false, tp := false, lt := false })
        ⟨h.ends, h.ent, (by nofun), h.n1, h.te, (by nofun), (by nofun), (by nofun), h.tn, (by nofun), (by nofun)⟩ rfl ha
      exact finish_solid C hm h.stack g.ends g.ent h.n1 h.n2 hn (by nofun) hf
  · rename_i hk
    rw [hk] at hf
    dsimp only at hf
    split at hs
    · rename_i k hc
      simp only [Option.some.injEq] at hs
      subst hs
      rw [h.acc, hc] at hf
      exact finish_solid C hm h.stack h.ends h.ent h.te (by nofun) h.tn h.lt hf
    · cases hs

theorem estep_solid {buf : List Byte} {c c' : ECfg} {a : XA} (h : XGood C buf c a) (hs : M.step buf c = some c') : XNext C buf c' := by
  obtain ⟨hm, hT⟩ := h.tab
  obtain ⟨he, hb⟩ := (closed_spec (C c.m hm).dfa (C c.m hm).closed).2 _ _ hT
  unfold Multi.step at hs
  split at hs
  · cases hs
  dsimp only at hs
  cases hbuf : buf[c.p]? with
  | none =>
    rw [hbuf] at hs
    simp only [Option.bind_none] at hs
    split at hs
    · cases hs
    · rename_i hc
      unfold XA.eofOk at he
      rw [Bool.or_eq_true] at he
      exact efallback_solid C h (nxt := true) (fun _ b hb' => by rw [hbuf] at hb'; cases hb') (he.resolve_left hc) hs
  | some b =>
    obtain ⟨bb, _, r, hr, hy⟩ := hb b (condAt buf c.p c.x.d)
    rw [hbuf] at hs
    simp only [Option.bind_some] at hs
    have hb1 : (bk b.toNat).solid = true → Solid buf (c.p + 1) := fun g => ⟨c.p, b, rfl, hbuf, BK.solid_of g⟩
    cases hd : (M.mach c.m).nfa.delta c.q b.toNat (condAt buf c.p c.x.d) with
    | none =>
      rw [hd] at hs hr
      simp only [view, Option.map_none, XA.succ] at hr
      dsimp only at hs
      split at hs
      · cases hs
      · rename_i hc
        split at hr
        · rename_i hk
          rw [Bool.or_eq_true] at hk
          refine efallback_solid C h (nxt := EA.isNl (bk b.toNat)) (fun g b' hb' => ?_) (hk.resolve_left hc) hs
          rw [hbuf] at hb'
          injection hb' with hb'
          subst hb'
          exact bk_nl g
        · cases hr
    | some v =>
      obtain ⟨q', as⟩ := v
      rw [hd] at hs hr hy
      simp only [view, Option.map_some, XA.succ] at hr
      dsimp only at hs
      generalize hts : (if ((M.mach c.m).scanner && c.q.isEmpty) = true then c.p else c.ts) = ts at hs
      generalize hk? : (if (M.mach c.m).scanner = true then (M.mach c.m).nfa.accepts q' else none) = k? at hs hr
      generalize hl : ((M.mach c.m).scanner && (M.mach c.m).nfa.isLast q') = last at hs hr
      generalize hte : (if (k?.isSome && !last) = true then c.p + 1 else c.te) = te at hs
      cases hacts : XA.acts M ⟨a.ent, (bk b.toNat).solid, !(bk b.toNat).solid && a.n1, if (k?.isSome && !last) = true then (bk b.toNat).solid else a.te,
          if k?.isSome = true then k? else a.acc,
          a.un && c.q.isEmpty && !EA.isNl (bk b.toNat) && (!(k?.isSome && !last) || (bk b.toNat).solid),
          o.nl && (c.q.isEmpty && (M.mach c.m).scanner), o.nl && (k?.isSome && !last),
          !(k?.isSome && !last) && (if a.ta = true then EA.isNl (bk b.toNat) else a.tn),
          o.tl && (k?.isSome && !last || a.tp), !(k?.isSome && !last) && a.lt⟩ as with
      | none => rw [hacts] at hr; cases hr
      | some v =>
        obtain ⟨a2, j⟩ := v
        rw [hacts] at hr
        have hX : XI buf ts (XA.mk a.ent (bk b.toNat).solid (!(bk b.toNat).solid && a.n1) (if (k?.isSome && !last) = true then (bk b.toNat).solid else a.te)
          (if k?.isSome = true then k? else a.acc)
          (a.un && c.q.isEmpty && !EA.isNl (bk b.toNat) && (!(k?.isSome && !last) || (bk b.toNat).solid))
          (o.nl && (c.q.isEmpty && (M.mach c.m).scanner)) (o.nl && (k?.isSome && !last))
          (!(k?.isSome && !last) && (if a.ta = true then EA.isNl (bk b.toNat) else a.tn))
          (o.tl && (k?.isSome && !last || a.tp)) (!(k?.isSome && !last) && a.lt)) { x := c.x, np := c.p + 1, te := te } := by
          refine ⟨h.ends, h.ent, hb1, fun g => h.n1 ((Bool.and_eq_true _ _).mp g).2, ?_, ?_, ?_, ?_, ?_, ?_, ?_⟩
          · intro g
            rw [← hte]
            dsimp only at g ⊢
            split
            · rename_i hk; rw [if_pos hk] at g; exact hb1 g
            · rename_i hk; rw [if_neg hk] at g; exact h.te g
          · intro g hn
            dsimp only at g hn ⊢
            simp only [Bool.and_eq_true, Bool.not_eq_true'] at g
            obtain ⟨⟨⟨g1, g2⟩, g3⟩, g4⟩ := g
            rcases h.un g1 hn with ⟨u1, u2⟩ | u
            · refine ⟨u1, ?_⟩
              rw [← hte]
              split
              · rename_i hk
                rw [hk] at g4
                exact hb1 (by simpa using g4)
              · exact u2
            · exfalso
              have := u b hbuf
              revert g3
              rcases this with rfl | rfl | rfl <;> decide
          · intro g
            dsimp only at g ⊢
            rw [Bool.and_eq_true] at g
            rw [← hts, if_pos (by rw [Bool.and_comm]; exact g.2)]
          · intro g
            dsimp only at g ⊢
            rw [Bool.and_eq_true] at g
            rw [← hte, if_pos g.2]
          · intro g
            dsimp only at g ⊢
            rw [Bool.and_eq_true] at g
            rw [← hte, if_neg (by intro hk; rw [hk] at g; exact absurd g.1 (by decide))]
            have g2 := g.2
            split at g2
            · rename_i hta
              rw [h.ta hta]
              intro b' hb'
              rw [hbuf] at hb'
              injection hb' with hb'
              subst hb'
              exact bk_nl g2
            · exact h.tn g2
          · intro g
            dsimp only at g ⊢
            rw [Bool.and_eq_true] at g
            rw [← hte]
            split
            · exact Nat.le_refl _
            · rename_i hk
              exact Nat.le_succ_of_le (h.tp ((or_true g.2).resolve_left hk))
          · intro g
            dsimp only at g ⊢
            rw [Bool.and_eq_true] at g
            rw [← hte, if_neg (by intro hk; rw [hk] at g; exact absurd g.1 (by decide))]
            exact h.lt g.2
        obtain ⟨g, gj, gacc⟩ := hX.acts rfl hacts
        generalize M.acts buf ts { x := c.x, np := c.p + 1, te := te } as = s at hs g gj
        cases j with
        | some j =>
          rw [if_pos (by rw [gj]; rfl)] at hs
          injection hs with hs
          subst hs
          dsimp only at hr
          split at hr
          · rename_i hjo
            unfold XA.jumpOk at hjo
            rw [Bool.and_eq_true] at hjo
            refine goOn_good C gj (XIn.init C hm) ?_ hjo.1 g.ends ?_ h.stack
            · rintro ⟨m', rfl⟩
              dsimp only at hr
              split at hr
              · rename_i hlast
                rw [if_pos hlast]
                exact XIn.init C hm
              · rename_i hlast
                rw [if_neg hlast]
                simp only [Option.some.injEq] at hr
                obtain ⟨q2, as2, e1, _, _, hT2⟩ := hy _ hr.symm
                simp only [Option.some.injEq, Prod.mk.injEq] at e1
                rw [e1.1]
                exact ⟨hm, hT2⟩
            · intro ho hn
              have h2 := hjo.2
              rw [ho] at h2
              simp only [Bool.not_true, Bool.false_or, Bool.or_eq_true, Bool.and_eq_true] at h2
              rcases h2 with h2 | ⟨h2, h3⟩
              · rw [calm_spec g.ent h2] at hn; cases hn
              · refine .inl ⟨g.n1 h2, ?_⟩
                rcases h3 with h3 | h3
                · exact g.te h3
                · exact (g.un h3 hn).2
          · cases hr
        | none =>
          rw [if_neg (by rw [gj]; nofun)] at hs
          dsimp only at hr
          split at hs
          · rename_i hlast
            rw [hlast] at hr
            simp only [if_true] at hr
            injection hs with hs
            subst hs
            split at hr
            · rename_i hk
              exact finish_solid C hm h.stack g.ends g.ent g.n1 g.n2 (by nofun) (by nofun) hk
            · cases hr
          · rename_i hlast
            rw [if_neg hlast] at hr
            simp only [Option.some.injEq] at hr
            obtain ⟨q2, as2, e1, _, hne, hT2⟩ := hy _ hr.symm
            simp only [Option.some.injEq, Prod.mk.injEq] at e1
            obtain ⟨rfl, rfl⟩ := e1
            injection hs with hs
            subst hs
            refine .inr ⟨{ a2 with un := false, fr := false }, ?_⟩
            unfold ECfg.goOn
            rw [gj]
            refine ⟨⟨hm, hT2⟩, g.ends, g.ent, g.n1, g.n2, g.te, (by nofun), g.ta, g.tn, g.tp, g.lt, ?_, fun hq => absurd hq hne, h.stack⟩
            dsimp only
            rw [gacc]
            dsimp only
            split
            · rfl
            · split
              · rename_i hqe
                rw [h.acc]
                exact h.start (by simpa using hqe)
              · exact h.acc

theorem erun_solid {buf : List Byte} : ∀ (k : Nat) {c : ECfg}, XNext C buf c → Ends buf (M.run buf k c).x.d
  | 0, c, h => by
    rcases h with h | ⟨a, h⟩
    · exact h.2
    · exact h.ends
  | k + 1, c, h => by
    have e : M.run buf (k + 1) c = match M.step buf c with | none => c | some c' => M.run buf k c' := rfl
    rw [e]
    cases hs : M.step buf c with
    | none =>
      rcases h with h | ⟨a, h⟩
      · exact h.2
      · exact h.ends
    | some c' =>
      rcases h with h | ⟨a, h⟩
      · unfold Multi.step at hs
        rw [if_pos h.1] at hs
        cases hs
      · exact erun_solid k (estep_solid C h hs)

end

/-- The machines that parser `P` uses for lines pass the check. -/
def SolidLine (P : EParser) : Prop := ∃ o : WOpt, P.line ∈ o.use ∧ ∀ m ∈ o.use, Nonempty (XCert P.multi o m)

theorem pairUp_mem : ∀ {ls : List Nat} {rs : List Rep} {r : ERep}, r ∈ pairUp ls rs → (⟨r.kind, r.s, r.e⟩ : Rep) ∈ rs
  | [], _, _, h => by simp [pairUp] at h
  | _ :: _, [], _, h => by simp [pairUp] at h
  | l :: ls, x :: rs, r, h => by
    rw [pairUp] at h
    rcases List.mem_cons.mp h with rfl | h
    · exact List.mem_cons_self ..
    · exact List.mem_cons_of_mem _ (pairUp_mem h)

/-- Every callback of a parser with embedded languages ends next to a byte that is neither blank nor tab, or at the end of the buffer. -/
theorem reports_solid {P : EParser} (h : SolidLine P) (l : ELeft) (buf : List Byte) :
    ∀ r ∈ P.reports l buf, Firm buf r.e ∨ r.e = buf.length := by
  obtain ⟨o, hu, hC⟩ := h
  intro r hr
  have C : XCerts P.multi o := fun m hm => Classical.choice (hC m hm)
  have hE : Ends buf (eexec P.multi P.line l buf).x.d := by
    refine erun_solid C _ (.inr ⟨XA.init o, XGood.again C (XIn.init C hu) rfl ⟨(fun _ h => nomatch h), (by nofun)⟩ ?_ (fun _ h => nomatch h)⟩)
    intro _ h
    cases h
  exact hE.last _ _ (pairUp_mem hr)

end Ohcount.Ragel
