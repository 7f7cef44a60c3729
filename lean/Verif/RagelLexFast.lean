import Verif.RagelLex

/-!
The check of `LCert` in a form that the kernel evaluates faster: the tables are search trees, and the
functions take the parts of values as arguments, so that the same call is only evaluated once.
-/

namespace Ohcount.Ragel
namespace CA

/-- `fallback`, with the fields of the value as arguments (the kernel then remembers results). -/
def fallbackF (M : Machine) (acc : Option Nat) (leave : List Act) (a_r : RS) (a_cr a_lone : Bool) (a_nx : List (Option Ch)) (a_acc : Option Nat) (a_snap : Option RS) (a_since : Option (List Ch × Bool)) (a_cross a_doom a_fresh : Bool) (a_prev : Option (RS × Ch)) (a_held : Bool) (a_d : DA) (x : Option Ch) : Option (Option (Bool × CA)) :=
  match acc with
  | some k => match a_d.acts M a_r leave with
    | none => none
    | some d => if fholds leave = 0 then stop M a_r a_cr (x :: a_nx.tail) d k else none
  | none => match a_acc, a_snap with
    | some k, some s => if a_cross then none else
        stop M s false (match a_since with | some (l, op) => l.map some ++ (if op then x :: a_nx.tail else []) | none => []) a_d k
    | _, _ => none

/-- `step`, with the fields of the value as arguments. -/
def stepF (M : Machine) (L : Lexis) (chk hold start : Bool) (acc : Option Nat) (leave : List Act) (a_r : RS) (a_cr a_lone : Bool) (a_nx : List (Option Ch)) (a_acc : Option Nat) (a_snap : Option RS) (a_since : Option (List Ch × Bool)) (a_cross a_doom a_fresh : Bool) (a_prev : Option (RS × Ch)) (a_held : Bool) (a_d : DA) (r : RS) (b : Nat) (k : BK) (cr : Bool)
    (t : Option (List Act × Option Nat × Bool)) : Option (Option (Bool × CA)) :=
  if k = .vt || (a_cr && k != .lf) || (a_lone && k == .lf) then some none else
  if r.mode = .bad then some none else
  match t with
  | none => if start then none else fallbackF M acc leave a_r a_cr a_lone a_nx a_acc a_snap a_since a_cross a_doom a_fresh a_prev a_held a_d (some (b, k, cr))
  | some (as, acc', last) =>
    if chk && a_r.nl && !start && !as.contains .cb then none else
    match a_d.acts M a_r as with
    | none => none
    | some d =>
      if fholds as = 0 then
        if isNl k cr && !r.pend.isEmpty then none
        else if last then stop M r (k == .cr && !cr) a_nx.tail d (acc'.getD 0)
        else
          let fresh := if start then a_r.pend.isEmpty else a_fresh
          let doom := (fresh && r.mons.any fun x => !a_r.mons.any fun y => x.1 == y.1) || (a_doom && !start)
          let fresh := fresh && !r.pend.isEmpty
          match (if acc'.isSome || !doom then some r else r.widen L) with
          | none => some none
          | some r =>
            let y : CA := ⟨r, k == .cr && !cr, k == .cr && cr, a_nx.tail, none, none, none, false, doom, fresh, if hold then some (a_r, b, k, cr) else none, false, d⟩
            if acc'.isSome || start then some (some (false, y))
            else if acc.isSome then (if a_held then none else some (some (false, { y with
              acc := acc, snap := some a_r, since := if a_r.pend.isEmpty then none else some ([(b, k, cr)], !r.pend.isEmpty), cross := a_r.nl })))
            else some (some (false, { y with
              acc := a_acc, snap := a_snap, since := a_since.map fun l => if l.2 then (l.1 ++ [(b, k, cr)], !r.pend.isEmpty) else l, cross := a_cross || a_r.nl }))
      else if as.contains .cb then none
      else if fholds as = 1 then
        let nx := some (b, k, cr) :: a_nx.tail
        if last then stop M a_r a_cr nx d (acc'.getD 0)
        else
          let y : CA := ⟨a_r, a_cr, a_lone, nx, none, none, none, false, a_doom && !start, false, none, acc'.isSome, d⟩
          if acc'.isSome || start then some (some (false, y))
          else if acc.isSome then (if a_held then none else some (some (false, { y with acc := acc, snap := some a_r, since := some ([], true), cross := false })))
          else some (some (false, { y with acc := a_acc, snap := a_snap, since := a_since, cross := a_cross }))
      else match a_prev with
        | none => none
        | some (r0, x0) =>
          if fholds as = 2 && !last && acc'.isNone && !start && acc.isNone && !a_r.nl then
            some (some (false, ⟨r0, false, false, some x0 :: some (b, k, cr) :: a_nx.tail, a_acc, a_snap, a_since.bind fun l => if l.1.isEmpty || !l.2 then none else some (l.1.dropLast, true), a_cross, a_doom, false, none, false, d⟩))
          else none

/-- `eof`, with the fields of the value as arguments. -/
def eofF (M : Machine) (L : Lexis) (start : Bool) (acc : Option Nat) (leave : List Act) (a_r : RS) (a_cr a_lone : Bool) (a_nx : List (Option Ch)) (a_acc : Option Nat) (a_snap : Option RS) (a_since : Option (List Ch × Bool)) (a_cross a_doom a_fresh : Bool) (a_prev : Option (RS × Ch)) (a_held : Bool) (a_d : DA) : Option (Option (Bool × CA)) :=
  if a_cr || (!a_r.top && !L.endOk (a_r.lastMode L)) then some none
  else if start then (if !a_r.top && decide (a_d.sk = a_r.lastKind L) then some none else none)
  else fallbackF M acc leave a_r a_cr a_lone a_nx a_acc a_snap a_since a_cross a_doom a_fresh a_prev a_held a_d none


theorem step_eq (M : Machine) (L : Lexis) (chk hold start : Bool) (acc : Option Nat) (leave : List Act) (a : CA) (r : RS) (b : Nat) (k : BK) (cr : Bool)
    (t : Option (List Act × Option Nat × Bool)) : a.step M L chk hold start acc leave r b k cr t
      = stepF M L chk hold start acc leave a.r a.cr a.lone a.nx a.acc a.snap a.since a.cross a.doom a.fresh a.prev a.held a.d r b k cr t := rfl

theorem eof_eq (M : Machine) (L : Lexis) (start : Bool) (acc : Option Nat) (leave : List Act) (a : CA) : a.eof M L start acc leave
      = eofF M L start acc leave a.r a.cr a.lone a.nx a.acc a.snap a.since a.cross a.doom a.fresh a.prev a.held a.d := rfl

end CA

/-- A number for a kind, a byte, and so on: only to find values quickly. -/
def kindKey : Kind → Nat | .lcode => 0 | .lcomment => 1 | .lblank => 2
def Mode.key : Mode → Nat
  | .code => 0 | .bad => 1 | .inside i => 5 * i + 2 | .escaped i => 5 * i + 3 | .escapedCr i => 5 * i + 4 | .closing i => 5 * i + 5
def natsKey (h : Nat) : List Nat → Nat | [] => h | x :: l => natsKey (h * 131 + x + 1) l
def monsKey (h : Nat) : List Lexis.Mon → Nat | [] => h | x :: l => monsKey (h * 131 + x.1 * 7 + x.2 + 1) l
def RS.key : RS → Nat
  | ⟨mode, pend, k, nl, mons, top⟩ => monsKey (natsKey ((mode.key * 4 + kindKey k) * 4 + nl.toNat + top.toNat * 2) pend * 3) mons
def nxKey (h : Nat) : List (Option Ch) → Nat
  | [] => h
  | none :: l => nxKey (h * 7) l
  | some (b, _, c) :: l => nxKey (h * 521 + b * 2 + c.toNat + 1) l
def chsKey (h : Nat) : List Ch → Nat
  | [] => h
  | (b, _, c) :: l => chsKey (h * 521 + b * 2 + c.toNat + 1) l
def DA.key : DA → Nat
  | ⟨sk, _, inq, qk⟩ => (kindKey sk * 2 + inq.toNat) * 4 + kindKey qk
def CA.key : CA → Nat
  | ⟨r, cr, lone, nx, acc, snap, since, cross, doom, fresh, prev, held, d⟩ =>
    nxKey (match since with | none => 0 | some (l, f) => chsKey (f.toNat + 1) l)  nx * 1000003 +
    (match snap with | none => 0 | some r => r.key) * 769 + (match acc with | none => 0 | some r => r + 1) * 97 +
    (match prev with | none => 0 | some r => r.1.key) * 101 + r.key * 12289 +
    ((((cr.toNat * 2 + lone.toNat) * 2 + cross.toNat) * 2 + doom.toNat) * 2 + fresh.toNat) * 2 + held.toNat + d.key * 64

/-- A search tree of values. -/
inductive CT where
  | leaf
  | node (l : CT) (n : Nat) (v : List CA) (r : CT)

namespace CT

def toList : CT → List CA
  | leaf => []
  | node l _ v r => v ++ (l.toList ++ r.toList)

def find (k : Nat) (y : CA) : CT → Bool
  | leaf => false
  | node l n v r => bif Nat.beq k n then v.any fun z => decide (z = y) else bif Nat.blt k n then l.find k y else r.find k y

def all (p : CA → Bool) : CT → Bool
  | leaf => true
  | node l _ v r => v.all p && (l.all p && r.all p)

theorem all_eq (p : CA → Bool) : ∀ t : CT, t.all p = t.toList.all p
  | leaf => rfl
  | node l _ v r => by simp only [all, toList, List.all_append, all_eq p l, all_eq p r]

theorem mem_of_find {k : Nat} {y : CA} : ∀ {t : CT}, t.find k y = true → y ∈ t.toList
  | leaf, h => by cases h
  | node l n v r, h => by
    unfold find at h
    unfold toList
    cases h1 : Nat.beq k n with
    | true =>
      simp only [h1, cond_true, List.any_eq_true, decide_eq_true_eq] at h
      obtain ⟨z, hz, rfl⟩ := h
      simp [hz]
    | false =>
      simp only [h1, cond_false] at h
      cases h2 : Nat.blt k n with
      | true => simp only [h2, cond_true] at h; simp [mem_of_find h]
      | false => simp only [h2, cond_false] at h; simp [mem_of_find h]

end CT

namespace CA

def okResF (tab : List CT) (j : Option Nat) : Option (Option (Bool × CA)) → Bool
  | none => false
  | some none => true
  | some (some (true, y)) => (tab.getD 0 .leaf).find y.key y
  | some (some (false, y)) => match j with
    | none => false
    | some j => (tab.getD j .leaf).find y.key y

theorem getD_map {tab : List CT} (j : Nat) : (tab.map CT.toList).getD j [] = (tab.getD j .leaf).toList := by
  simp only [List.getD_eq_getElem?_getD, List.getElem?_map]
  cases tab[j]? <;> rfl

theorem okRes_of {tab : List CT} {j : Option Nat} : ∀ {x}, okResF tab j x = true → okRes (tab.map CT.toList) j x = true
  | none, h => h
  | some none, _ => rfl
  | some (some (true, y)), h => by
    unfold okResF at h
    unfold okRes
    rw [getD_map, List.any_eq_true]
    exact ⟨y, CT.mem_of_find h, by simp⟩
  | some (some (false, y)), h => by
    cases j with
    | none => exact h
    | some j =>
      unfold okResF at h
      unfold okRes
      dsimp only at h ⊢
      rw [getD_map, List.any_eq_true]
      exact ⟨y, CT.mem_of_find h, by simp⟩

/-- A transition, prepared: the byte that stands for it, its kind, `cr`, whether a line ends, the next row, the target. -/
structure FTr where
  b : Nat
  k : BK
  cr : Bool
  nl : Bool
  j : Option Nat
  t : Option (List Act × Option Nat × Bool)
  deriving DecidableEq

structure FRow where
  start : Bool
  acc : Option Nat
  leave : List Act
  trs : List FTr
  deriving DecidableEq

def prepTr (L : Lexis) (e : Tr) : FTr :=
  ⟨if L.rel.contains e.b then e.b else Lexis.surr e.k, e.k, e.cr, isNl e.k e.cr,
    match e.tgt with | some t => if t.last then none else some t.j | none => none, e.tgt.map fun t => (t.acts, t.acc, t.last)⟩

def prep (L : Lexis) (r : Row) : FRow := ⟨r.q.isEmpty, r.acc, r.leave, r.trs.map (prepTr L)⟩

/-- The check of one value at one row. -/
def closedVal (M : Machine) (L : Lexis) (chk hold : Bool) (tab : List CT) (start : Bool) (acc : Option Nat) (leave : List Act)
    (trs : List FTr) : CA → Bool
  | ⟨r, acr, lone, nx, aacc, snap, since, cross, doom, fresh, prev, held, d⟩ =>
    (!(match nx with | [] => true | y :: _ => decide (y = none)) ||
      okResF tab none (eofF M L start acc leave r acr lone nx aacc snap since cross doom fresh prev held d)) &&
    trs.all fun
      | ⟨b, k, cr, nl, j, t⟩ =>
        !(match nx with | [] => true | y :: _ => decide (y = some (b, k, cr))) || (r.feed L b nl).all fun s =>
          okResF tab j (stepF M L chk hold start acc leave r acr lone nx aacc snap since cross doom fresh prev held d s b k cr t)

def closedRowsF (M : Machine) (L : Lexis) (chk hold : Bool) (tab : List CT) : List FRow → List CT → Bool
  | ⟨start, acc, leave, trs⟩ :: rs, l :: ls => l.all (closedVal M L chk hold tab start acc leave trs) && closedRowsF M L chk hold tab rs ls
  | _, _ => true

theorem closedRow_of {M : Machine} {L : Lexis} {chk hold : Bool} {tab : List CT} {r : Row} {l : CT}
    (h : l.all (closedVal M L chk hold tab (prep L r).start (prep L r).acc (prep L r).leave (prep L r).trs) = true) :
    closedRow M L chk hold (tab.map CT.toList) r l.toList = true := by
  rw [CT.all_eq, List.all_eq_true] at h
  unfold closedRow
  rw [List.all_eq_true]
  intro a ha
  have h1 := h a ha
  cases a
  unfold closedVal prep at h1
  simp only [Bool.and_eq_true, List.all_map, List.all_eq_true] at h1 ⊢
  refine ⟨?_, fun e he => ?_⟩
  · rw [Bool.or_eq_true] at h1 ⊢
    rcases h1.1 with h2 | h2
    · exact .inl h2
    · exact .inr (okRes_of h2)
  · have h3 := h1.2 e he
    unfold prepTr at h3
    simp only [Function.comp] at h3
    rw [Bool.or_eq_true] at h3 ⊢
    rcases h3 with h3 | h3
    · exact .inl h3
    · right
      rw [List.all_eq_true] at h3 ⊢
      intro s hs
      exact okRes_of (h3 s hs)

theorem closedRows_of {M : Machine} {L : Lexis} {chk hold : Bool} {tab : List CT} : ∀ {rs : List Row} {ls : List CT},
    closedRowsF M L chk hold tab (rs.map (prep L)) ls = true → closedRows M L chk hold (tab.map CT.toList) rs (ls.map CT.toList) = true
  | [], _, _ => by simp [closedRows]
  | _ :: _, [], _ => by simp [closedRows]
  | r :: rs, l :: ls, h => by
    simp only [List.map_cons, closedRowsF, Bool.and_eq_true] at h
    simp only [List.map_cons, closedRows, Bool.and_eq_true]
    exact ⟨closedRow_of h.1, closedRows_of h.2⟩

def closedF (M : Machine) (L : Lexis) (chk hold : Bool) (rows : List FRow) (tab : List CT) : Bool :=
  (tab.getD 0 .leaf).find init.key init && closedRowsF M L chk hold tab rows tab

theorem closed_of {M : Machine} {L : Lexis} {chk hold : Bool} {rows : List Row} {fr : List FRow} {tab : List CT} (hf : rows.map (prep L) = fr)
    (h : closedF M L chk hold fr tab = true) : closed M L chk hold rows (tab.map CT.toList) = true := by
  subst hf
  unfold closedF at h
  unfold closed
  rw [Bool.and_eq_true] at h ⊢
  refine ⟨?_, closedRows_of h.2⟩
  rw [getD_map, List.any_eq_true]
  exact ⟨_, CT.mem_of_find h.1, by simp⟩

end CA
/-- The certificates needed for the kinds of the lines that a scanner reports. -/
def Classified (L : Lexis) (M : Machine) : Prop :=
  ∃ (V : Lvl) (_ : SCert M) (_ : BCert V M) (C : LCert L M), V.noraw = true → C.chk = true

end Ohcount.Ragel
