import Verif.Ragel

/-!
A byte with which no pattern of the scanner starts, met between two tokens, stops the scanner.
-/

namespace Ohcount.Ragel

theorem getElem?_shared {a r r' : List Byte} {v : Byte} {p : Nat} (hp : p ≤ a.length) :
    (a ++ v :: r)[p]? = (a ++ v :: r')[p]? := by
  by_cases h : p < a.length
  · rw [List.getElem?_append_left h, List.getElem?_append_left h]
  · have : p = a.length := by omega
    subst this
    simp

theorem condAt_shared {a r r' : List Byte} {v : Byte} {p : Nat} (hp : p < a.length) (d : Data) :
    condAt (a ++ v :: r) p d = condAt (a ++ v :: r') p d := by
  funext c
  cases c <;> simp only [condAt, startsLineAt]
  · rw [getElem?_shared (by omega)]
  · rw [getElem?_shared (by omega : p - 1 ≤ a.length)]
  · rw [getElem?_shared (by omega : p - 1 ≤ a.length)]

theorem lineEnd_shared {a r r' : List Byte} {v : Byte} {p : Nat} (hp : p ≤ a.length) :
    lineEnd (a ++ v :: r) p = lineEnd (a ++ v :: r') p := by
  cases p with
  | zero => rfl
  | succ p =>
    simp only [lineEnd]
    rw [getElem?_shared (by omega), getElem?_shared (by omega : p + 1 ≤ a.length)]

/-- While the scanner is before the end of `a` it does not see what comes after the byte following `a`. -/
theorem step_shared (M : Machine) {a r r' : List Byte} {v : Byte} {c : Cfg} (hp : c.p < a.length) :
    M.step (a ++ v :: r) c = M.step (a ++ v :: r') c := by
  unfold Machine.step
  rw [getElem?_shared (r' := r') (by omega), condAt_shared hp, lineEnd_shared (r' := r') (by omega)]

theorem run_shared (M : Machine) {a r r' : List Byte} {v : Byte} : ∀ (n : Nat) (c : Cfg),
    (∀ k, k < n → (M.run (a ++ v :: r) k c).p < a.length) → M.run (a ++ v :: r') n c = M.run (a ++ v :: r) n c := by
  intro n
  induction n with
  | zero => intro c _; rfl
  | succ n ih =>
    intro c h
    have h0 : c.p < a.length := h 0 (by omega)
    show (match M.step (a ++ v :: r') c with | none => c | some x => M.run (a ++ v :: r') n x)
      = (match M.step (a ++ v :: r) c with | none => c | some x => M.run (a ++ v :: r) n x)
    rw [step_shared M (r' := r) h0]
    cases hs : M.step (a ++ v :: r) c with
    | none => rfl
    | some x =>
      apply ih
      intro k hk
      have := h (k + 1) (by omega)
      simp only [Machine.run, hs] at this
      exact this

theorem run_stopped (M : Machine) (buf : List Byte) {c : Cfg} (h : M.step buf c = none) : ∀ n, M.run buf n c = c
  | 0 => rfl
  | n + 1 => by simp only [Machine.run, h]

theorem run_add (M : Machine) (buf : List Byte) : ∀ (n k : Nat) (c : Cfg), M.run buf (n + k) c = M.run buf k (M.run buf n c)
  | 0, k, c => by simp [Machine.run]
  | n + 1, k, c => by
    rw [show n + 1 + k = (n + k) + 1 by omega]
    simp only [Machine.run]
    cases hs : M.step buf c with
    | none => simp only []; rw [run_stopped M buf hs]
    | some x => simp only []; exact run_add M buf n k x

/-- No pattern starts with the byte. -/
def NoStart (M : Machine) (v : Byte) : Prop := ∀ e ∈ M.nfa.start, Cls.has e.mask v.toNat = false

theorem delta_noStart {M : Machine} {v : Byte} (h : NoStart M v) (cv : Cond → Bool) : M.nfa.delta [] v.toNat cv = none := by
  have : (M.nfa.edges []).filter (fun e => e.mask.has v.toNat && e.conds.all cv) = [] := by
    rw [List.filter_eq_nil_iff]
    intro e he
    have he' : e ∈ M.nfa.start := he
    rw [h e he']; simp
  unfold Nfa.delta Nfa.enabled
  rw [this]; rfl

/-- The scanner, reading `a` followed by the byte `v`, comes to the end of `a` between two tokens
without having looked further. -/
def BetweenTokens (M : Machine) (l : Leftover) (a : List Byte) (v : Byte) : Prop :=
  ∃ n, n ≤ fuel (a.length + 1) ∧ (M.run (a ++ [v]) n (initCfg l)).q = [] ∧ (M.run (a ++ [v]) n (initCfg l)).p = a.length ∧
    ∀ k, k < n → (M.run (a ++ [v]) k (initCfg l)).p < a.length

theorem fuel_mono {a b : Nat} (h : a ≤ b) : fuel a ≤ fuel b := by
  unfold fuel
  exact Nat.mul_le_mul (by omega) (by omega)

/-- Then it stops there whatever follows. -/
theorem exec_stuck {M : Machine} {v : Byte} (hv : NoStart M v) {l : Leftover} {a : List Byte} (h : BetweenTokens M l a v) :
    ∃ d : Data, ∀ r, (exec M l (a ++ v :: r)).d = d ∧ (exec M l (a ++ v :: r)).p = a.length := by
  obtain ⟨n, hf, hq, hp, hlt⟩ := h
  refine ⟨(M.run (a ++ [v]) n (initCfg l)).d, fun r => ?_⟩
  have h1 : M.run (a ++ v :: r) n (initCfg l) = M.run (a ++ [v]) n (initCfg l) := run_shared M (r := []) n _ hlt
  have h2 : M.step (a ++ v :: r) (M.run (a ++ [v]) n (initCfg l)) = none := by
    unfold Machine.step
    rw [hp, hq]
    simp [delta_noStart hv]
  have h3 : n ≤ fuel (a ++ v :: r).length := Nat.le_trans hf (fuel_mono (by simp))
  obtain ⟨k, hk⟩ := Nat.exists_eq_add_of_le h3
  unfold exec
  rw [hk, run_add, h1, run_stopped M _ h2]
  exact ⟨rfl, hp⟩

/-- The callbacks are those made before, and possibly one more that takes all the rest of the buffer
for the end of the current line. -/
theorem reports_stuck {M : Machine} {v : Byte} (hv : NoStart M v) {l : Leftover} {a : List Byte} (h : BetweenTokens M l a v) :
    ∃ out : List Rep, (∀ r, lineReports M l (a ++ v :: r) = out) ∨
      ∃ k s, ∀ r, lineReports M l (a ++ v :: r) = out ++ [⟨k, s, a.length + 1 + r.length⟩] := by
  obtain ⟨d, hd⟩ := exec_stuck hv h
  refine ⟨d.out, ?_⟩
  have hlen : ∀ r : List Byte, (a ++ v :: r).length = a.length + 1 + r.length := by intro r; simp; omega
  unfold lineReports Data.processLastLine
  cases hw : (d.wlc || d.lcc) with
  | false => left; intro r; rw [(hd r).1]; simp [hw]
  | true =>
    cases hs : d.ls with
    | none =>
      left; intro r; rw [(hd r).1, hw]
      cases hc : d.lcc <;> simp [hs, Data.emit]
    | some s =>
      right
      refine ⟨if d.lcc then .lcode else .lcomment, s, fun r => ?_⟩
      rw [(hd r).1, hlen]
      cases hc : d.lcc <;> rw [hc] at hw <;> simp at hw <;> simp [hw, hs, Data.emit]

end Ohcount.Ragel
