import Verif.Lexis

/-!
The labels of `Lexis.scan`, computed byte by byte: a state holds the bytes whose labels depend on bytes
not yet read.
-/

namespace Ohcount.Ragel

/-- `l` is a prefix of `o` but not all of it. -/
def properPrefix (l o : List Nat) : Bool := l.isPrefixOf o && decide (l.length < o.length)

theorem isPrefixOf_append {l o : List Nat} (h : properPrefix l o = false) (r : List Nat) :
    o.isPrefixOf (l ++ r) = o.isPrefixOf l := by
  rw [Bool.eq_iff_iff, List.isPrefixOf_iff_prefix, List.isPrefixOf_iff_prefix]
  constructor
  · intro hp
    by_cases hl : o.length ≤ l.length
    · exact List.prefix_of_prefix_length_le hp (List.prefix_append l r) hl
    · have h1 : l <+: o := List.prefix_of_prefix_length_le (List.prefix_append l r) hp (by omega)
      unfold properPrefix at h
      rw [List.isPrefixOf_iff_prefix.mpr h1] at h
      simp at h; omega
  · intro hp
    exact hp.trans (List.prefix_append l r)

/-- The higher of two kinds: code over comment over blank. -/
def join : Kind → Kind → Kind
  | .lcode, _ => .lcode
  | _, .lcode => .lcode
  | .lcomment, _ => .lcomment
  | _, .lcomment => .lcomment
  | k, _ => k

namespace Lexis
variable (L : Lexis)

/-- The bytes that the delimiters are made of, and the backslash. -/
def rel : List Nat := 92 :: L.flatMap fun c => c.op ++ (c.avoid ++ c.cl).flatten

/-- Delimiters are not empty and have no tab. -/
def ok : Bool := List.all L (fun (c : Construct) => !c.op.isEmpty && (c.avoid ++ c.cl).all fun x => !x.isEmpty) &&
  L.rel.all fun x => decide (x < 256) && !([9, 11].contains x)

/-- Inside `c` the element at the head of `l` does not depend on what follows `l`. -/
def decidedIn (c : Construct) (l : List Nat) : Bool :=
  ((c.avoid ++ c.cl).all fun x => !properPrefix l x) && !(c.esc && l == [92])

/-- The element at the head of `l` depends on what follows `l` at most in that a construct must be closed on the same line. -/
def decided : Mode → List Nat → Bool
  | .bad, _ => true
  | .code, l => List.all L fun (c : Construct) => !properPrefix l c.op
  | .inside i, l => match L[i]? with | some c => decidedIn c l | none => true
  | .escaped _, _ | .closing _, _ => true
  | .escapedCr i, l => match L[i]? with | some c => l.headD 0 == 10 || decidedIn c l | none => true

theorem headD_append {l r : List Nat} (h : l ≠ []) : (l ++ r).headD 0 = l.headD 0 := by
  cases l with
  | nil => exact absurd rfl h
  | cons a l => rfl

theorem find?_congr' {α : Type} {f g : α → Bool} : ∀ {l : List α}, (∀ x ∈ l, f x = g x) → l.find? f = l.find? g
  | [], _ => rfl
  | a :: l, h => by
    rw [List.find?_cons, List.find?_cons, h a (by simp), find?_congr' (fun x hx => h x (by simp [hx]))]

theorem tokIn_append {i : Nat} {c : Construct} {ag : Bool} {l : List Nat} (h : decidedIn c l = true) (hl : l ≠ []) (r : List Nat) :
    tokIn i c ag (l ++ r) = tokIn i c ag l := by
  unfold decidedIn at h
  rw [Bool.and_eq_true] at h
  unfold tokIn
  rw [headD_append hl]
  have h1 : c.closer (l ++ r) = c.closer l := by
    unfold Construct.closer
    apply find?_congr'
    intro x hx
    rw [List.all_eq_true] at h
    exact isPrefixOf_append (by simpa using h.1 x hx) r
  rw [h1]
  by_cases h92 : (c.esc && l.headD 0 == 92) = true
  · have h2 : (l ++ r).getD 1 0 = l.getD 1 0 := by
      cases l with
      | nil => exact absurd rfl hl
      | cons a l =>
        cases l with
        | nil =>
          simp only [Bool.and_eq_true, List.headD_cons, beq_iff_eq] at h92
          rw [h92.1, h92.2] at h
          simp at h
        | cons b l => rfl
    rw [h2]
  · rw [Bool.not_eq_true] at h92
    simp only [h92, Bool.false_eq_true, if_false]

theorem tokIn_len {i : Nat} {c : Construct} {ag : Bool} {l : List Nat} (h : decidedIn c l = true) (hl : l ≠ []) (hok : ∀ x ∈ c.avoid ++ c.cl, x ≠ []) :
    1 ≤ (tokIn i c ag l).n ∧ (tokIn i c ag l).n ≤ l.length := by
  have h0 : 1 ≤ l.length := by cases l with | nil => exact absurd rfl hl | cons a l => simp
  unfold tokIn
  dsimp only
  cases hc : (if ag then none else c.closer l) with
  | some x =>
    dsimp only
    have hc : c.closer l = some x := by
      cases ag with
      | true => cases hc
      | false => exact hc
    unfold Construct.closer at hc
    have h1 := List.mem_of_find?_eq_some hc
    have h2 := List.find?_some hc
    have := (List.isPrefixOf_iff_prefix.mp h2).length_le
    refine ⟨?_, this⟩
    have := hok x h1
    cases x with
    | nil => exact absurd rfl this
    | cons a x => simp
  | none =>
    dsimp only
    split
    · exact ⟨Nat.le_refl _, h0⟩
    · split
      · rename_i h92
        split
        · exact ⟨Nat.le_refl _, h0⟩
        · refine ⟨by dsimp only; split <;> omega, ?_⟩
          cases l with
          | nil => exact absurd rfl hl
          | cons a l =>
            cases l with
            | nil =>
              simp only [Bool.and_eq_true, List.headD_cons, beq_iff_eq] at h92
              unfold decidedIn at h
              rw [h92.1, h92.2] at h
              simp at h
            | cons b l => simp only [List.length_cons]; split <;> omega
      · exact ⟨Nat.le_refl _, h0⟩

theorem ok_mem (hok : L.ok = true) {c : Construct} (hc : c ∈ L) : c.op ≠ [] ∧ ∀ x ∈ c.avoid ++ c.cl, x ≠ [] := by
  unfold ok at hok
  rw [Bool.and_eq_true, List.all_eq_true] at hok
  have := hok.1 c hc
  rw [Bool.and_eq_true, List.all_eq_true] at this
  refine ⟨by simpa using this.1, fun x hx => by simpa using this.2 x hx⟩

theorem ok_spec (hok : L.ok = true) {i : Nat} {c : Construct} (hc : L[i]? = some c) : c.op ≠ [] ∧ ∀ x ∈ c.avoid ++ c.cl, x ≠ [] :=
  L.ok_mem hok (List.mem_of_getElem? hc)

theorem findIdx?_congr' {α : Type} {f g : α → Bool} : ∀ {l : List α}, (∀ x ∈ l, f x = g x) → l.findIdx? f = l.findIdx? g
  | [], _ => rfl
  | a :: l, h => by
    rw [List.findIdx?_cons, List.findIdx?_cons, h a (by simp), findIdx?_congr' (fun x hx => h x (by simp [hx]))]

/-! ### Constructs that were not opened -/

/-- `(i, st)`: no closing delimiter of the construct `i` comes before the line end (`st` as in `Construct.look`). -/
abbrev Mon := Nat × Nat

/-- What `x` says holds of the text `l`. -/
def holds (x : Mon) (l : List Nat) : Prop := ∀ c, L[x.1]? = some c → c.shut x.2 l = false

/-- The next byte: `none` if it is a closing delimiter, `some none` if the line ends. -/
def monByte (x : Mon) (b : Nat) : Option (Option Mon) :=
  match L[x.1]? with
  | none => some none
  | some c => match c.look x.2 b with
    | .inl true => none
    | .inl false => some none
    | .inr st => some (some (x.1, st))

theorem monByte_spec {x : Mon} {b : Nat} {r : List Nat} (h : L.holds x (b :: r)) :
    ∃ o, L.monByte x b = some o ∧ ∀ y, o = some y → L.holds y r := by
  unfold monByte
  cases hc : L[x.1]? with
  | none => exact ⟨none, rfl, by simp⟩
  | some c =>
    have h1 := h c hc
    dsimp only
    unfold Construct.shut at h1
    cases hl : c.look x.2 b with
    | inl y =>
      rw [hl] at h1
      dsimp only at h1
      subst h1
      exact ⟨none, rfl, by simp⟩
    | inr st =>
      rw [hl] at h1
      refine ⟨_, rfl, ?_⟩
      rintro y ⟨⟩ c' hc'
      rw [hc] at hc'
      cases hc'
      exact h1

def addMon (x : Mon) (l : List Mon) : List Mon := if l.contains x then l else x :: l

theorem mem_addMon {x y : Mon} {l : List Mon} (h : y ∈ addMon x l) : y = x ∨ y ∈ l := by
  unfold addMon at h
  split at h
  · exact Or.inr h
  · simpa using h

/-- All of them, one byte. -/
def monsByte (b : Nat) : List Mon → Option (List Mon)
  | [] => some []
  | x :: ms => match L.monByte x b, monsByte b ms with
    | some o, some r => some (match o with | some y => addMon y r | none => r)
    | _, _ => none

theorem monsByte_spec {b : Nat} {r : List Nat} : ∀ {ms : List Mon}, (∀ x ∈ ms, L.holds x (b :: r)) →
    ∃ ms', L.monsByte b ms = some ms' ∧ ∀ x ∈ ms', L.holds x r
  | [], _ => ⟨[], rfl, by simp⟩
  | x :: ms, h => by
    obtain ⟨o, h1, h2⟩ := L.monByte_spec (h x (by simp))
    obtain ⟨ms', h3, h4⟩ := monsByte_spec (ms := ms) fun y hy => h y (by simp [hy])
    simp only [monsByte, h1, h3]
    cases o with
    | none => exact ⟨_, rfl, h4⟩
    | some y =>
      refine ⟨_, rfl, ?_⟩
      intro z hz
      rcases mem_addMon hz with rfl | hz
      · exact h2 _ rfl
      · exact h4 z hz

/-- ... and many bytes. -/
def monsRun : List Nat → List Mon → Option (List Mon)
  | [], ms => some ms
  | b :: l, ms => match L.monsByte b ms with | none => none | some ms' => monsRun l ms'

theorem monsRun_spec {r : List Nat} : ∀ {l : List Nat} {ms : List Mon}, (∀ x ∈ ms, L.holds x (l ++ r)) →
    ∃ ms', L.monsRun l ms = some ms' ∧ ∀ x ∈ ms', L.holds x r
  | [], ms, h => ⟨ms, rfl, h⟩
  | b :: l, ms, h => by
    obtain ⟨ms', h1, h2⟩ := L.monsByte_spec (ms := ms) h
    obtain ⟨ms2, h3, h4⟩ := monsRun_spec h2
    exact ⟨ms2, by simp only [monsRun, h1, h3], h4⟩

/-- The elements that there may be at the head of `l`, outside of constructs; with the constructs that are not opened then. -/
def toksFrom : Nat → List Construct → List Nat → List (Tok × List Mon)
  | _, [], l => [(tokCode l, [])]
  | i, c :: cs, l =>
    if c.op.isPrefixOf l then
      (c.opening i, []) ::
        (if c.soft then (toksFrom (i + 1) cs l).map (fun x =>
          (x.1, if x.1.n == c.op.length then addMon (i, if c.one then 2 else 0) x.2 else x.2)) else [])
    else toksFrom (i + 1) cs l

/-- The elements that there may be inside the construct `i`. -/
def toksIn (i : Nat) (c : Construct) (l : List Nat) : List (Tok × List Mon) :=
  match c.closer l with
  | none => [(tokIn i c false l, [])]
  | some x => if c.last then [(tokIn i c true l, []), (tokIn i c false l, [(i, 0)])] else [(tokIn i c false l, [])]

def toks : Mode → List Nat → List (Tok × List Mon)
  | .code, l => toksFrom 0 L l
  | .inside i, l => match L[i]? with | some c => toksIn i c l | none => [(⟨1, .lblank, .bad⟩, [])]
  | .escapedCr i, l => match L[i]? with
    | some c => if l.headD 0 == 10 then [(⟨1, .lblank, .inside i⟩, [])] else toksIn i c l
    | none => [(⟨1, .lblank, .bad⟩, [])]
  | m, l => [(L.tok m l, [])]

/-- Reading outside of constructs, from the construct `i` on. -/
def tokFrom (i : Nat) (cs : List Construct) (l : List Nat) : Tok :=
  match cs.findIdx? (·.opens l) with
  | some j => match cs[j]? with
    | some c => c.opening (i + j)
    | none => ⟨1, .lblank, .bad⟩
  | none => tokCode l

theorem tokFrom_cons (i : Nat) (c : Construct) (cs : List Construct) (l : List Nat) :
    tokFrom i (c :: cs) l = if c.opens l then c.opening i else tokFrom (i + 1) cs l := by
  unfold tokFrom
  rw [List.findIdx?_cons]
  cases h : c.opens l with
  | true => simp
  | false =>
    simp only [Bool.false_eq_true, if_false]
    cases hf : cs.findIdx? (·.opens l) with
    | none => simp
    | some j => simp only [Option.map_some, List.getElem?_cons_succ, show i + 1 + j = i + (j + 1) by omega]

theorem toksFrom_spec (hok : L.ok = true) {l : List Nat} (hl : l ≠ []) (r : List Nat) : ∀ {cs : List Construct} {i : Nat},
    (∀ j c, cs[j]? = some c → L[i + j]? = some c) → (∀ c ∈ cs, properPrefix l c.op = false) →
    ∃ x ∈ toksFrom i cs l, tokFrom i cs (l ++ r) = x.1 ∧ 1 ≤ x.1.n ∧ x.1.n ≤ l.length ∧ ∀ y ∈ x.2, L.holds y (l.drop x.1.n ++ r)
  | [], i, _, _ => by
    have h0 : 1 ≤ l.length := by cases l with | nil => exact absurd rfl hl | cons a l => simp
    refine ⟨(tokCode l, []), by simp [toksFrom], ?_, Nat.le_refl _, h0, by simp⟩
    unfold tokFrom tokCode
    rw [headD_append hl]; rfl
  | c :: cs, i, hi, hd => by
    have hc : L[i]? = some c := by simpa using hi 0 c rfl
    have ih := toksFrom_spec hok hl r (cs := cs) (i := i + 1)
      (fun j c' hj => by rw [show i + 1 + j = i + (j + 1) by omega]; exact hi (j + 1) c' (by simpa using hj))
      (fun c' hc' => hd c' (by simp [hc']))
    have hp : c.op.isPrefixOf (l ++ r) = c.op.isPrefixOf l := isPrefixOf_append (hd c (by simp)) r
    rw [tokFrom_cons]
    unfold toksFrom
    cases hop : c.op.isPrefixOf l with
    | false =>
      have : c.opens (l ++ r) = false := by unfold Construct.opens; rw [hp, hop]; rfl
      simp only [this, Bool.false_eq_true, if_false]
      exact ih
    | true =>
      have hlen := (List.isPrefixOf_iff_prefix.mp hop).length_le
      have h1 : 1 ≤ c.op.length := by
        have := (L.ok_spec hok hc).1
        cases hcc : c.op with
        | nil => exact absurd hcc this
        | cons a x => simp
      simp only [if_true]
      cases hopen : c.opens (l ++ r) with
      | true =>
        simp only [if_true]
        exact ⟨_, List.mem_cons_self .., rfl, h1, hlen, by simp⟩
      | false =>
        unfold Construct.opens at hopen
        rw [hp, hop] at hopen
        simp only [Bool.true_and, Bool.or_eq_false_iff, Bool.not_eq_false'] at hopen
        simp only [hopen.1, if_true, Bool.false_eq_true, if_false]
        obtain ⟨x, hx, e1, e2, e3, e4⟩ := ih
        refine ⟨_, List.mem_cons_of_mem _ (List.mem_map.mpr ⟨x, hx, rfl⟩), e1, e2, e3, ?_⟩
        dsimp only
        split
        · rename_i hn
          have hn : x.1.n = c.op.length := by simpa using hn
          intro y hy
          rcases mem_addMon hy with rfl | hy
          · intro c' hc'
            dsimp only at hc' ⊢
            rw [hc] at hc'
            cases hc'
            rw [hn, ← List.drop_append_of_le_length hlen]
            exact hopen.2
          · exact e4 y hy
        · exact e4

theorem tok_code (l : List Nat) : L.tok .code l = tokFrom 0 L l := by
  unfold tokFrom
  simp only [tok, Nat.zero_add]
  rfl

theorem toksIn_spec (hok : L.ok = true) {i : Nat} {c : Construct} (hc : L[i]? = some c) {l : List Nat} (h : decidedIn c l = true) (hl : l ≠ [])
    (r : List Nat) : ∃ x ∈ toksIn i c l, tokIn i c (c.again (l ++ r)) (l ++ r) = x.1 ∧ 1 ≤ x.1.n ∧ x.1.n ≤ l.length ∧
      ∀ y ∈ x.2, L.holds y (l.drop x.1.n ++ r) := by
  have hlen := fun ag => tokIn_len (i := i) (ag := ag) h hl (L.ok_spec hok hc).2
  have hcl : c.closer (l ++ r) = c.closer l := by
    unfold decidedIn at h
    rw [Bool.and_eq_true, List.all_eq_true] at h
    unfold Construct.closer
    apply find?_congr'
    intro x hx
    exact isPrefixOf_append (by simpa using h.1 x hx) r
  rw [tokIn_append h hl r]
  unfold toksIn
  unfold Construct.again
  rw [hcl]
  cases hx : c.closer l with
  | none =>
    dsimp only
    rw [Bool.and_false]
    exact ⟨_, List.mem_singleton.mpr rfl, rfl, (hlen false).1, (hlen false).2, by simp⟩
  | some x =>
    dsimp only
    cases hla : c.last with
    | false =>
      simp only [Bool.false_eq_true, if_false, Bool.false_and]
      exact ⟨_, List.mem_singleton.mpr rfl, rfl, (hlen false).1, (hlen false).2, by simp⟩
    | true =>
      simp only [if_true, Bool.true_and]
      have hp : x.length ≤ l.length := by
        unfold Construct.closer at hx
        have h1 : x.isPrefixOf l = true := List.find?_some (p := fun y : List Nat => y.isPrefixOf l) hx
        exact (List.isPrefixOf_iff_prefix.mp h1).length_le
      cases hs : c.shut 0 ((l ++ r).drop x.length) with
      | true => exact ⟨_, List.mem_cons_self, rfl, (hlen true).1, (hlen true).2, by simp⟩
      | false =>
        refine ⟨_, List.mem_cons_of_mem _ (List.mem_singleton.mpr rfl), rfl, (hlen false).1, (hlen false).2, ?_⟩
        intro y hy
        rw [List.mem_singleton] at hy
        subst hy
        intro c' hc'
        dsimp only at hc' ⊢
        rw [hc] at hc'
        cases hc'
        have hn : (tokIn i c false l).n = x.length := by
          unfold tokIn
          simp only [hx, Bool.false_eq_true, if_false]
        rw [hn, ← List.drop_append_of_le_length hp]
        exact hs

theorem toks_spec (hok : L.ok = true) {m : Mode} {l : List Nat} (h : L.decided m l = true) (hl : l ≠ []) (r : List Nat) :
    ∃ x ∈ L.toks m l, L.tok m (l ++ r) = x.1 ∧ 1 ≤ x.1.n ∧ x.1.n ≤ l.length ∧ ∀ y ∈ x.2, L.holds y (l.drop x.1.n ++ r) := by
  have h0 : 1 ≤ l.length := by cases l with | nil => exact absurd rfl hl | cons a l => simp
  cases m with
  | bad => exact ⟨_, List.mem_singleton.mpr rfl, rfl, Nat.le_refl _, h0, by simp⟩
  | code =>
    simp only [decided] at h
    rw [List.all_eq_true] at h
    rw [tok_code]
    exact L.toksFrom_spec hok hl r (fun j c hj => by rw [Nat.zero_add]; exact hj) fun c hc => by simpa using h c hc
  | inside i =>
    simp only [decided] at h
    simp only [toks, tok]
    cases hc : L[i]? with
    | none => exact ⟨_, List.mem_singleton.mpr rfl, rfl, Nat.le_refl _, h0, by simp⟩
    | some c =>
      rw [hc] at h
      exact L.toksIn_spec hok hc h hl r
  | escaped i =>
    have : (L.tok (.escaped i) l).n = 1 := by
      simp only [tok]
      split
      · split <;> rfl
      · rfl
    exact ⟨_, List.mem_singleton.mpr rfl, by simp only [tok, headD_append hl], by dsimp only; omega, by dsimp only; omega, by simp⟩
  | closing i =>
    have : (L.tok (.closing i) l).n = 1 := by
      simp only [tok]
      split <;> rfl
    exact ⟨_, List.mem_singleton.mpr rfl, by simp only [tok, headD_append hl], by dsimp only; omega, by dsimp only; omega, by simp⟩
  | escapedCr i =>
    simp only [decided] at h
    simp only [toks, tok]
    cases hc : L[i]? with
    | none => exact ⟨_, List.mem_singleton.mpr rfl, rfl, Nat.le_refl _, h0, by simp⟩
    | some c =>
      rw [hc] at h
      dsimp only at h ⊢
      rw [headD_append hl]
      by_cases h10 : (l.headD 0 == 10) = true
      · simp only [h10, if_true]
        exact ⟨_, List.mem_singleton.mpr rfl, rfl, Nat.le_refl _, h0, by simp⟩
      · rw [Bool.not_eq_true] at h10
        rw [h10, Bool.false_or] at h
        simp only [h10, Bool.false_eq_true, if_false]
        exact L.toksIn_spec hok hc h hl r

theorem scan_lab (m : Mode) (a b : Kind) (l : List Nat) : L.scan m 0 a l = L.scan m 0 b l := by
  cases l <;> rfl

theorem scan_skip (m : Mode) (lb a : Kind) : ∀ (k : Nat) (l : List Nat), k ≤ l.length →
    L.scan m k lb l = (List.replicate k lb ++ (L.scan m 0 a (l.drop k)).1, (L.scan m 0 a (l.drop k)).2)
  | 0, l, _ => by rw [L.scan_lab m lb a]; simp
  | k + 1, [], h => by simp at h
  | k + 1, b :: l, h => by
    have ih := scan_skip m lb a k l (by simpa using h)
    simp only [scan, List.drop_succ_cons, List.replicate_succ, List.cons_append, ih]

/-- One element. -/
theorem scan_tok {m : Mode} {l : List Nat} (hl : l ≠ []) (h1 : 1 ≤ (L.tok m l).n) (h2 : (L.tok m l).n ≤ l.length) (a b : Kind) :
    L.scan m 0 a l = (List.replicate (L.tok m l).n (L.tok m l).lab ++ (L.scan (L.tok m l).mode 0 b (l.drop (L.tok m l).n)).1,
      (L.scan (L.tok m l).mode 0 b (l.drop (L.tok m l).n)).2) := by
  cases l with
  | nil => exact absurd rfl hl
  | cons x l =>
    simp only [scan]
    generalize L.tok m (x :: l) = t at h1 h2
    obtain ⟨n, lab, mode⟩ := t
    cases n with
    | zero => simp at h1
    | succ n =>
      simp only [Nat.add_sub_cancel]
      rw [L.scan_skip mode lab b n l (by simpa using h2)]
      simp [List.replicate_succ]

/-- A point in the reading: the mode, the bytes not yet labelled, the kind of the labels given since some point, and
the constructs not opened. -/
structure Pt where
  mode : Mode
  pend : List Nat
  k : Kind
  mons : List Mon

/-- As many elements as are decided, in all ways that the following text may allow. -/
def drain : Nat → Mode → List Nat → Kind → List Mon → List Pt
  | 0, m, l, k, ms => [⟨m, l, k, ms⟩]
  | n + 1, m, l, k, ms =>
    if l.isEmpty || !L.decided m l then [⟨m, l, k, ms⟩]
    else (L.toks m l).flatMap fun x => match L.monsRun (l.take x.1.n) ms with
      | none => []
      | some ms' => drain n x.1.mode (l.drop x.1.n) (join k x.1.lab) (x.2.foldr addMon ms')

theorem mem_foldr_addMon {y : Mon} : ∀ {l ms : List Mon}, y ∈ l.foldr addMon ms → y ∈ l ∨ y ∈ ms
  | [], ms, h => Or.inr h
  | x :: l, ms, h => by
    rcases mem_addMon h with rfl | h
    · exact Or.inl (by simp)
    · rcases mem_foldr_addMon h with h | h
      · exact Or.inl (by simp [h])
      · exact Or.inr h

theorem join_idem (k a : Kind) : join (join k a) a = join k a := by cases k <;> cases a <;> rfl

theorem foldl_replicate (a : Kind) : ∀ (n : Nat) (k : Kind), 1 ≤ n → (List.replicate n a).foldl join k = join k a
  | 0, _, h => by omega
  | 1, _, _ => rfl
  | n + 2, k, _ => by
    rw [List.replicate_succ, List.foldl_cons, foldl_replicate a (n + 1) _ (by omega), join_idem]

theorem drain_spec (hok : L.ok = true) (a : Kind) (r : List Nat) : ∀ (n : Nat) (m : Mode) (l : List Nat) (k : Kind) (ms : List Mon),
    (∀ x ∈ ms, L.holds x (l ++ r)) → ∃ P ∈ L.drain n m l k ms, ∃ lbs : List Kind,
    L.scan m 0 a (l ++ r) = (lbs ++ (L.scan P.mode 0 a (P.pend ++ r)).1, (L.scan P.mode 0 a (P.pend ++ r)).2) ∧
    lbs.length + P.pend.length = l.length ∧ lbs.foldl join k = P.k ∧ ∀ x ∈ P.mons, L.holds x (P.pend ++ r)
  | 0, m, l, k, ms, h => ⟨⟨m, l, k, ms⟩, by simp [drain], [], by simp, by simp, rfl, h⟩
  | n + 1, m, l, k, ms, h => by
    unfold drain
    split
    · exact ⟨⟨m, l, k, ms⟩, by simp, [], by simp, by simp, rfl, h⟩
    · rename_i hd
      simp only [Bool.or_eq_true, List.isEmpty_iff, Bool.not_eq_true', not_or, Bool.not_eq_false] at hd
      obtain ⟨x, hx, t1, t2, t3, t4⟩ := L.toks_spec hok hd.2 hd.1 r
      have hspl : l ++ r = l.take x.1.n ++ (l.drop x.1.n ++ r) := by rw [← List.append_assoc, List.take_append_drop]
      obtain ⟨ms', m1, m2⟩ := L.monsRun_spec (l := l.take x.1.n) (r := l.drop x.1.n ++ r) (ms := ms) (by rw [← hspl]; exact h)
      have hm : ∀ y ∈ x.2.foldr addMon ms', L.holds y (l.drop x.1.n ++ r) := by
        intro y hy
        rcases mem_foldr_addMon hy with hy | hy
        · exact t4 y hy
        · exact m2 y hy
      obtain ⟨P, hP, lbs, h1, h2, h3, h4⟩ := drain_spec hok a r n x.1.mode (l.drop x.1.n) (join k x.1.lab) _ hm
      refine ⟨P, ?_, List.replicate x.1.n x.1.lab ++ lbs, ?_, ?_, ?_, h4⟩
      · rw [List.mem_flatMap]
        refine ⟨x, hx, ?_⟩
        rw [m1]
        exact hP
      · have hne : l ++ r ≠ [] := by intro h; exact hd.1 (List.append_eq_nil_iff.mp h).1
        have e1 := L.scan_tok (m := m) hne (by rw [t1]; exact t2)
          (by rw [t1, List.length_append]; exact Nat.le_trans t3 (Nat.le_add_right _ _)) a a
        rw [e1, t1, List.drop_append_of_le_length t3, h1]
        simp
      · simp only [List.length_append, List.length_replicate, List.length_drop] at h2 ⊢
        omega
      · rw [List.foldl_append, foldl_replicate _ _ _ t2, h3]

theorem scan_bad (a : Kind) : ∀ l : List Nat, (L.scan .bad 0 a l).2 = .bad
  | [] => rfl
  | b :: l => by
    simp only [scan, tok]
    exact scan_bad _ l

/-! ### Bytes that are not told apart -/

/-- A byte that is in no delimiter is replaced by one that stands for its class. -/
def surr : BK → Nat
  | .ws => 9 | .lf => 10 | .ff => 12 | .cr => 13 | .vt => 11 | .other => 256

def repr (b : Nat) : Nat := if L.rel.contains b then b else surr (bk b)

theorem bk_surr (k : BK) : bk (surr k) = k := by cases k <;> decide

theorem bk_repr (b : Nat) : bk (L.repr b) = bk b := by
  unfold repr
  split
  · rfl
  · exact bk_surr _

theorem eq10_bk (b : Nat) : (b == 10) = (bk b == .lf) := by
  unfold bk
  cases h : (b == 10)
  · simp only [Bool.false_eq_true, if_false]
    repeat' split
    all_goals rfl
  · rfl

theorem eq12_bk (b : Nat) : (b == 12) = (bk b == .ff) := by
  unfold bk
  cases h : (b == 12)
  · simp only [Bool.false_eq_true, if_false]
    repeat' split
    all_goals rfl
  · have : b = 12 := by simpa using h
    subst this; rfl

theorem eq13_bk (b : Nat) : (b == 13) = (bk b == .cr) := by
  unfold bk
  cases h : (b == 13)
  · simp only [Bool.false_eq_true, if_false]
    repeat' split
    all_goals rfl
  · have : b = 13 := by simpa using h
    subst this; rfl

theorem isNl_bk (b : Nat) : isNl b = (bk b == .lf || bk b == .ff || bk b == .cr) := by
  unfold isNl
  rw [eq10_bk, eq12_bk, eq13_bk]

theorem isWhite_bk (b : Nat) : isWhite b = (bk b == .ws || bk b == .lf || bk b == .ff || bk b == .cr) := by
  unfold isWhite
  have : (b == 32 || b == 9) = (bk b == .ws) := by
    unfold bk
    by_cases h9 : b = 9
    · subst h9; rfl
    by_cases h32 : b = 32
    · subst h32; rfl
    have e1 : (b == 9) = false := by simpa using h9
    have e2 : (b == 32) = false := by simpa using h32
    rw [e1, e2]
    simp only [Bool.or_false, Bool.false_eq_true, if_false]
    repeat' split
    all_goals rfl
  rw [this, isNl_bk]
  simp only [Bool.or_assoc]

theorem isNl_repr (b : Nat) : isNl (L.repr b) = isNl b := by rw [isNl_bk, isNl_bk, bk_repr]
theorem isWhite_repr (b : Nat) : isWhite (L.repr b) = isWhite b := by rw [isWhite_bk, isWhite_bk, bk_repr]
theorem eq10_repr (b : Nat) : (L.repr b == 10) = (b == 10) := by rw [eq10_bk, eq10_bk, bk_repr]
theorem eq12_repr (b : Nat) : (L.repr b == 12) = (b == 12) := by rw [eq12_bk, eq12_bk, bk_repr]
theorem eq13_repr (b : Nat) : (L.repr b == 13) = (b == 13) := by rw [eq13_bk, eq13_bk, bk_repr]

theorem rel_spec (hok : L.ok = true) {x : Nat} (hx : x ∈ L.rel) : x < 256 ∧ x ∉ [9, 11] := by
  unfold ok at hok
  rw [Bool.and_eq_true, List.all_eq_true, List.all_eq_true] at hok
  have := hok.2 x hx
  simpa using this

theorem repr_eq (hok : L.ok = true) {x : Nat} (hx : x ∈ L.rel) (b : Nat) : (L.repr b == x) = (b == x) := by
  have h := L.rel_spec hok hx
  by_cases h10 : x = 10
  · subst h10; exact L.eq10_repr b
  by_cases h12 : x = 12
  · subst h12; exact L.eq12_repr b
  by_cases h13 : x = 13
  · subst h13; exact L.eq13_repr b
  unfold repr
  split
  · rfl
  · rename_i hb
    have h1 : (b == x) = false := by
      rw [beq_eq_false_iff_ne]
      rintro rfl
      exact hb (by simpa using hx)
    rw [h1, beq_eq_false_iff_ne]
    rintro h2
    rw [← h2] at h h10 h12 h13
    revert h h10 h12 h13
    cases bk b <;> decide

theorem isPrefixOf_repr (hok : L.ok = true) : ∀ {o : List Nat}, (∀ x ∈ o, x ∈ L.rel) → ∀ l : List Nat,
    o.isPrefixOf (l.map L.repr) = o.isPrefixOf l
  | [], _, l => by cases l <;> rfl
  | a :: o, _, [] => rfl
  | a :: o, h, b :: l => by
    simp only [List.map_cons, List.isPrefixOf]
    rw [isPrefixOf_repr hok (fun x hx => h x (by simp [hx])) l]
    have := L.repr_eq hok (h a (by simp)) b
    rw [Bool.beq_comm, this, Bool.beq_comm]

theorem rel_mem {c : Construct} (hm : c ∈ L) : (∀ x ∈ c.op, x ∈ L.rel) ∧ ∀ o ∈ c.avoid ++ c.cl, ∀ x ∈ o, x ∈ L.rel := by
  constructor
  · intro x hx
    unfold rel
    exact List.mem_cons_of_mem _ (List.mem_flatMap.mpr ⟨c, hm, List.mem_append_left _ hx⟩)
  · intro o ho x hx
    unfold rel
    exact List.mem_cons_of_mem _ (List.mem_flatMap.mpr ⟨c, hm, List.mem_append_right _ (List.mem_flatten.mpr ⟨o, ho, hx⟩)⟩)

theorem eq92_repr (hok : L.ok = true) (b : Nat) : (L.repr b == 92) = (b == 92) := L.repr_eq hok (by simp [rel]) b

theorem contains_repr (hok : L.ok = true) (b : Nat) : ∀ {cl : List (List Nat)}, (∀ o ∈ cl, ∀ x ∈ o, x ∈ L.rel) →
    cl.contains [L.repr b] = cl.contains [b]
  | [], _ => rfl
  | o :: cl, h => by
    rw [List.contains_cons, List.contains_cons, contains_repr hok b (fun o' ho => h o' (by simp [ho]))]
    congr 1
    cases o with
    | nil => rfl
    | cons x o =>
      cases o with
      | nil =>
        have := L.repr_eq hok (h [x] (by simp) x (by simp)) b
        have e : ∀ u v : Nat, ([u] == [v]) = (u == v) := by intro u v; simp
        rw [e, e, this]
      | cons y o =>
        have e : ∀ u : Nat, ([u] == x :: y :: o) = false := by intro u; simp
        rw [e, e]

theorem look_repr (hok : L.ok = true) {c : Construct} (hm : c ∈ L) (st b : Nat) : c.look st (L.repr b) = c.look st b := by
  unfold Construct.look
  rw [isNl_repr, L.eq92_repr hok, L.contains_repr hok b fun o ho => (L.rel_mem hm).2 o (List.mem_append_right _ ho)]

theorem shut_repr (hok : L.ok = true) {c : Construct} (hm : c ∈ L) : ∀ (l : List Nat) (st : Nat), c.shut st (l.map L.repr) = c.shut st l
  | [], st => rfl
  | b :: l, st => by
    simp only [List.map_cons, Construct.shut, L.look_repr hok hm]
    cases c.look st b with
    | inl x => rfl
    | inr st' => exact shut_repr hok hm l st'

theorem opens_repr (hok : L.ok = true) {c : Construct} (hm : c ∈ L) (l : List Nat) : c.opens (l.map L.repr) = c.opens l := by
  unfold Construct.opens
  rw [L.isPrefixOf_repr hok (L.rel_mem hm).1, ← List.map_drop, L.shut_repr hok hm]

theorem closer_repr (hok : L.ok = true) {c : Construct} (hm : c ∈ L) (l : List Nat) : c.closer (l.map L.repr) = c.closer l := by
  unfold Construct.closer
  apply find?_congr'
  intro x hx
  exact L.isPrefixOf_repr hok ((L.rel_mem hm).2 x hx) _

theorem again_repr (hok : L.ok = true) {c : Construct} (hm : c ∈ L) (l : List Nat) : c.again (l.map L.repr) = c.again l := by
  unfold Construct.again
  rw [L.closer_repr hok hm]
  cases c.closer l with
  | none => rfl
  | some x => dsimp only; rw [← List.map_drop, L.shut_repr hok hm]

theorem tokIn_repr (hok : L.ok = true) {i : Nat} {c : Construct} (hc : L[i]? = some c) {ag : Bool} {l : List Nat} (hl : l ≠ []) :
    tokIn i c ag (l.map L.repr) = tokIn i c ag l := by
  cases l with
  | nil => exact absurd rfl hl
  | cons b l =>
    have h1 := L.closer_repr hok (List.mem_of_getElem? hc) (b :: l)
    have h2 : isNl (((b :: l).map L.repr).getD 1 0) = isNl ((b :: l).getD 1 0) := by
      cases l with
      | nil => rfl
      | cons d l => exact L.isNl_repr d
    have h3 := L.eq92_repr hok b
    unfold tokIn
    simp only [h1, h2]
    simp only [List.map_cons, List.headD_cons, isNl_repr, isWhite_repr, h3]
    rfl

theorem tok_repr (hok : L.ok = true) (m : Mode) {l : List Nat} (hl : l ≠ []) : L.tok m (l.map L.repr) = L.tok m l := by
  cases hm : l with
  | nil => exact absurd hm hl
  | cons b l' =>
    rw [← hm]
    have hh : (l.map L.repr).headD 0 = L.repr b := by rw [hm]; rfl
    have hh' : l.headD 0 = b := by rw [hm]; rfl
    cases m with
    | bad => rfl
    | code =>
      have h1 : L.findIdx? (·.opens (l.map L.repr)) = L.findIdx? (·.opens l) := by
        apply findIdx?_congr'
        intro c hc
        exact L.opens_repr hok hc l
      simp only [tok, h1, tokCode, hh, hh', isWhite_repr]
    | inside i =>
      simp only [tok]
      cases hc : L[i]? with
      | none => rfl
      | some c => dsimp only; rw [L.tokIn_repr hok hc hl, L.again_repr hok (List.mem_of_getElem? hc)]
    | escaped i =>
      simp only [tok, hh, hh', eq13_repr]
    | closing i =>
      simp only [tok, hh, hh']
      cases hc : L[i]? with
      | none => rfl
      | some c => dsimp only; rw [L.contains_repr hok _ fun o ho => (L.rel_mem (List.mem_of_getElem? hc)).2 o (List.mem_append_right _ ho)]
    | escapedCr i =>
      simp only [tok, hh, hh', eq10_repr]
      cases hc : L[i]? with
      | none => rfl
      | some c => dsimp only; rw [L.tokIn_repr hok hc hl, L.again_repr hok (List.mem_of_getElem? hc)]

theorem scan_repr (hok : L.ok = true) : ∀ (l : List Nat) (m : Mode) (k : Nat) (a : Kind), L.scan m k a (l.map L.repr) = L.scan m k a l
  | [], _, _, _ => rfl
  | b :: l, m, k + 1, a => by
    simp only [List.map_cons, scan, scan_repr hok l]
  | b :: l, m, 0, a => by
    have := L.tok_repr hok m (l := b :: l) (by simp)
    rw [List.map_cons] at this
    simp only [List.map_cons, scan, this, scan_repr hok l]

end Lexis
end Ohcount.Ragel
