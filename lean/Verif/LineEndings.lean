import Verif.Additive

/-!
C107: the counts of a file do not depend on whether its lines end with a line feed or with a carriage return and a line feed.
-/

namespace Ohcount.Ragel
open Gram Cert

/-- The text with a carriage return before each line feed. -/
def crlf : List Byte → List Byte
  | [] => []
  | b :: r => if b = 10 then 13 :: 10 :: crlf r else b :: crlf r

/-! ### Line ends one byte at a time -/

/-- A line ends after the byte `b`, before the rest `r`. -/
def endsAt (b : Byte) (r : List Byte) : Bool :=
  b == 10 || b == 12 || (b == 13 && match r with | c :: _ => c != 10 | [] => false)

theorem lineEnd_one (b : Byte) (r : List Byte) : lineEnd (b :: r) 1 = endsAt b r := by
  unfold lineEnd endsAt
  cases r <;> rfl

theorem lineEnd_succ (b : Byte) (r : List Byte) (p : Nat) : lineEnd (b :: r) (p + 2) = lineEnd r (p + 1) := by
  simp only [lineEnd, List.getElem?_cons_succ]

theorem lineEnds_cons (b : Byte) (r : List Byte) :
    lineEnds (b :: r) = (if endsAt b r then [1] else []) ++ (lineEnds r).map (· + 1) := by
  unfold lineEnds
  have h1 : List.range ((b :: r).length + 1) = 0 :: 1 :: (List.range r.length).map (· + 2) := by
    rw [List.length_cons, List.range_succ_eq_map, List.range_succ_eq_map, List.map_cons, List.map_map]
    rfl
  have h2 : List.range (r.length + 1) = 0 :: (List.range r.length).map (· + 1) := by
    rw [List.range_succ_eq_map]
  have e0 : ∀ l : List Byte, lineEnd l 0 = false := fun _ => rfl
  rw [h1, h2, List.filter_cons, e0, List.filter_cons, lineEnd_one, List.filter_cons, e0, List.filter_map, List.filter_map]
  have : (lineEnd (b :: r) ∘ fun x => x + 2) = (lineEnd r ∘ fun x => x + 1) := by
    funext p; exact lineEnd_succ b r p
  rw [this]
  simp only [Bool.false_eq_true, if_false, List.map_map]
  cases endsAt b r <;> rfl

/-- The kind of a line with these labels. -/
def kindOf (l : List Kind) : Kind := if l.contains .lcode then .lcode else if l.contains .lcomment then .lcomment else .lblank

/-- The kind of a line of the kind `a` so far, after a byte with the label `k`. -/
def orKind (a k : Kind) : Kind := if a = .lcode ∨ k = .lcode then .lcode else if a = .lcomment ∨ k = .lcomment then .lcomment else .lblank

theorem kindOf_snoc (l : List Kind) (k : Kind) : kindOf (l ++ [k]) = orKind (kindOf l) k := by
  unfold kindOf orKind
  cases h1 : l.contains Kind.lcode <;> cases h2 : l.contains Kind.lcomment <;> cases k <;>
    simp only [List.contains_eq_mem, List.mem_append, List.mem_singleton, decide_eq_true_eq, decide_eq_false_iff_not] at * <;> simp_all

theorem orKind_blank (a : Kind) : orKind a .lblank = a := by cases a <;> rfl

/-- The kinds of the lines of a text, read byte by byte: `cur` is the kind of the line so far. -/
def byByte : Kind → List Byte → List Kind → List Kind
  | cur, b :: r, k :: ks => if endsAt b r then orKind cur k :: byByte .lblank r ks else byByte (orKind cur k) r ks
  | cur, _, _ => if cur = .lblank then [] else [cur]

/-- The kinds of the lines that end at the given positions, the first of which starts at `s`, and of the text after them. -/
def byEnds (ks : List Kind) : Nat → List Nat → List Kind
  | s, [] => let k := kindOf (ks.drop s); if k = .lblank then [] else [k]
  | s, e :: es => kindOf ((ks.drop s).take (e - s)) :: byEnds ks e es

theorem seg_eq (ks : List Kind) : ∀ (E : List Nat) (s : Nat), byEnds ks s E =
    ((s :: E).zip E).map (fun x => kindOf ((ks.drop x.1).take (x.2 - x.1))) ++
      (let k := kindOf (ks.drop (E.getLastD s)); if k = .lblank then [] else [k])
  | [], s => by simp [byEnds]
  | e :: es, s => by
    rw [byEnds, seg_eq ks es e, List.zip_cons_cons, List.map_cons, List.cons_append, List.getLastD_cons]

theorem seg_byByte : ∀ (r : List Byte) (ks pre : List Kind) (s : Nat), ks.length = r.length → s ≤ pre.length →
    byEnds (pre ++ ks) s ((lineEnds r).map (· + pre.length)) = byByte (kindOf (pre.drop s)) r ks
  | [], ks, pre, s, h, hs => by
    have : ks = [] := List.length_eq_zero_iff.1 h
    subst this
    have e : lineEnds ([] : List Byte) = [] := rfl
    rw [e]
    simp [byEnds, byByte]
  | b :: r, [], pre, s, h, hs => by cases h
  | b :: r, k :: ks, pre, s, h, hs => by
    have h' : ks.length = r.length := by simpa using h
    have ea : pre ++ k :: ks = (pre ++ [k]) ++ ks := by simp
    have em : ((lineEnds r).map (· + 1)).map (· + pre.length) = (lineEnds r).map (· + (pre ++ [k]).length) := by
      rw [List.map_map]
      refine List.map_congr_left fun x _ => ?_
      simp only [Function.comp, List.length_append, List.length_singleton]; omega
    have ej : kindOf ((pre ++ [k]).drop s) = orKind (kindOf (pre.drop s)) k := by
      rw [List.drop_append_of_le_length hs, kindOf_snoc]
    rw [lineEnds_cons, byByte]
    cases he : endsAt b r with
    | true =>
      simp only [if_true, List.cons_append, List.nil_append, List.map_cons, em]
      have hn : 1 + pre.length = (pre ++ [k]).length := by simp [Nat.add_comm]
      rw [byEnds, hn, ea, seg_byByte r ks (pre ++ [k]) _ h' (Nat.le_refl _)]
      congr 1
      · rw [← ej, List.drop_append_of_le_length (by simp; omega), List.take_append_of_le_length (by simp),
          List.take_of_length_le (by simp)]
      · rw [List.drop_length]; rfl
    | false =>
      simp only [Bool.false_eq_true, if_false, List.nil_append, em]
      rw [ea, seg_byByte r ks (pre ++ [k]) s h' (by simp; omega), ej]

/-- The kinds of the lines of a text, from its labels. -/
theorem kinds_walk (L : Lexis) (T : List Byte) : L.kinds T = byByte .lblank T (L.labels T) := by
  have h := seg_byByte T (L.labels T) [] 0 (labels_length L T) (Nat.le_refl _)
  rw [List.nil_append] at h
  have e : (lineEnds T).map (· + ([] : List Kind).length) = lineEnds T := by simp
  rw [e, seg_eq] at h
  have hj : kindOf (([] : List Kind).drop 0) = .lblank := rfl
  rw [hj] at h
  rw [← h]
  unfold Lexis.kinds Lexis.lines
  have ek : L.lineKind T (lastStart T) T.length = kindOf ((L.labels T).drop ((lineEnds T).getLastD 0)) := by
    unfold Lexis.lineKind kindOf
    rw [List.take_of_length_le (by rw [List.length_drop, labels_length]; exact Nat.le_refl _)]
    rfl
  rw [List.map_append, List.map_map]
  congr 1
  simp only [ek]
  split <;> rfl

/-! ### Reading a text with carriage returns -/

/-- The same for lists of numbers. -/
def crs : List Nat → List Nat
  | [] => []
  | b :: r => if b = 10 then 13 :: 10 :: crs r else b :: crs r

theorem crs_ne {b : Nat} (h : b ≠ 10) (r : List Nat) : crs (b :: r) = b :: crs r := by rw [crs, if_neg h]
theorem crs_lf (r : List Nat) : crs (10 :: r) = 13 :: 10 :: crs r := rfl

theorem crlf_map : ∀ T : List Byte, (crlf T).map (·.toNat) = crs (T.map (·.toNat))
  | [] => rfl
  | b :: r => by
    rw [crlf]
    split
    · next h => subst h; rw [List.map_cons, List.map_cons, crlf_map r]; rfl
    · next h =>
      have : b.toNat ≠ 10 := fun e => h (by apply UInt8.toNat_inj.1; exact e)
      rw [List.map_cons, List.map_cons, crs_ne this, crlf_map r]

theorem prefix_crs : ∀ (d l : List Nat), d.any isNl = false → d.isPrefixOf (crs l) = d.isPrefixOf l
  | [], l, _ => by simp
  | x :: d, [], _ => rfl
  | x :: d, b :: r, h => by
    rw [List.any_cons, Bool.or_eq_false_iff] at h
    by_cases hb : b = 10
    · subst hb
      have h1 : (x == 13) = false := by
        have := h.1
        simp only [isNl, Bool.or_eq_false_iff] at this
        exact this.2
      have h2 : (x == 10) = false := by
        have := h.1
        simp only [isNl, Bool.or_eq_false_iff] at this
        exact this.1.1
      rw [crs_lf, List.isPrefixOf_cons_cons, List.isPrefixOf_cons_cons, h1, h2]; rfl
    · rw [crs_ne hb, List.isPrefixOf_cons_cons, List.isPrefixOf_cons_cons, prefix_crs d r h.2]

theorem any_mem {d : List Nat} (h : d.any isNl = false) : 10 ∉ d := fun e => by
  rw [List.any_eq_false] at h
  exact h 10 e rfl

theorem drop_crs : ∀ (n : Nat) (l : List Nat), 10 ∉ l.take n → (crs l).drop n = crs (l.drop n)
  | 0, l, _ => rfl
  | n + 1, [], _ => rfl
  | n + 1, b :: r, h => by
    rw [List.take_succ_cons, List.mem_cons, not_or] at h
    rw [crs_ne (Ne.symm h.1), List.drop_succ_cons, List.drop_succ_cons, drop_crs n r h.2]

theorem prefix_take {d l : List Nat} (hd : d.any isNl = false) (h : d.isPrefixOf l = true) : 10 ∉ l.take d.length := by
  obtain ⟨t, rfl⟩ := List.isPrefixOf_iff_prefix.1 h
  rw [List.take_left]
  exact any_mem hd

theorem cl_nl {c : Construct} (h : c.flat = true) {b : Nat} (hb : isNl b = true) : c.cl.contains [b] = false := by
  rw [List.contains_eq_mem, decide_eq_false_iff_not]
  intro e
  have := (flat_cl h (List.mem_append_right _ e)).1
  simp [hb] at this

theorem look_end {c : Construct} (h : c.flat = true) (st : Nat) {b : Nat} (hb : isNl b = true) : c.look st b = .inl false := by
  unfold Construct.look
  rw [cl_nl h hb, hb]
  split <;> simp

theorem shut_crs {c : Construct} (h : c.flat = true) : ∀ (l : List Nat) (st : Nat), c.shut st (crs l) = c.shut st l
  | [], st => rfl
  | b :: r, st => by
    by_cases hb : b = 10
    · subst hb
      rw [crs_lf]
      unfold Construct.shut
      rw [look_end h st (b := 13) rfl, look_end h st (b := 10) rfl]
    · rw [crs_ne hb]
      unfold Construct.shut
      cases c.look st b with
      | inl x => rfl
      | inr st' => exact shut_crs h r st'

theorem opens_crs {c : Construct} (h : c.flat = true) (l : List Nat) : c.opens (crs l) = c.opens l := by
  have ho := (flat_op h).1
  unfold Construct.opens
  rw [prefix_crs c.op l ho]
  cases hp : c.op.isPrefixOf l with
  | false => rfl
  | true => rw [drop_crs _ _ (prefix_take ho hp), shut_crs h]

theorem closer_crs {c : Construct} (h : c.flat = true) (l : List Nat) : c.closer (crs l) = c.closer l :=
  find_congr _ fun d hd => prefix_crs d l (flat_cl h hd).1

theorem again_crs {c : Construct} (h : c.flat = true) (l : List Nat) : c.again (crs l) = c.again l := by
  unfold Construct.again
  rw [closer_crs h]
  cases hx : c.closer l with
  | none => rfl
  | some x =>
    obtain ⟨h1, h2⟩ := closer_mem hx
    simp only
    rw [drop_crs _ _ (prefix_take (flat_cl h h1).1 h2), shut_crs h]

theorem second_crs (r : List Nat) (b : Nat) : isNl ((b :: crs r).getD 1 0) = isNl ((b :: r).getD 1 0) := by
  cases r with
  | nil => rfl
  | cons c r =>
    by_cases hc : c = 10
    · subst hc; rfl
    · rw [crs_ne hc]; rfl

theorem tokIn_crs {c : Construct} (h : c.flat = true) (i : Nat) (a : Bool) {b : Nat} (hb : b ≠ 10) (r : List Nat) :
    tokIn i c a (b :: crs r) = tokIn i c a (b :: r) := by
  have hc : c.closer (b :: crs r) = c.closer (b :: r) := by rw [← crs_ne hb, closer_crs h]
  unfold tokIn
  simp only [List.headD_cons, second_crs, hc]
  rfl

theorem tokIn_take {c : Construct} (h : c.flat = true) (i : Nat) (a : Bool) (b : Nat) (r : List Nat) :
    10 ∉ r.take ((tokIn i c a (b :: r)).n - 1) := by
  unfold tokIn
  simp only
  split
  · next x hx =>
    split at hx
    · cases hx
    · obtain ⟨h1, h2⟩ := closer_mem hx
      have := prefix_take (flat_cl h h1).1 h2
      simp only
      cases hl : x.length with
      | zero => simp
      | succ n => rw [hl, List.take_succ_cons, List.mem_cons, not_or] at this; simpa using this.2
  · split
    · simp
    · split
      · split
        · simp
        · next hn =>
          split
          · cases r with
            | nil => simp
            | cons c r =>
              have hn : isNl c = false := by simpa using hn
              have : (10 : Nat) ≠ c := fun e => by subst e; cases hn
              simpa using this
          · simp
      · simp

theorem tok_crs {L : Lexis} (h : L.flat = true) (m : Mode) {b : Nat} (hb : b ≠ 10) (r : List Nat) : L.tok m (b :: crs r) = L.tok m (b :: r) := by
  cases m with
  | bad => rfl
  | code =>
    simp only [Lexis.tok]
    have : List.findIdx? (fun c : Construct => c.opens (b :: crs r)) L = List.findIdx? (fun c : Construct => c.opens (b :: r)) L :=
      findIdx_congr L fun c hc => by rw [← crs_ne hb, opens_crs (List.all_eq_true.1 h c hc)]
    rw [this]; rfl
  | inside i =>
    simp only [Lexis.tok]
    cases hc : L[i]? with
    | none => rfl
    | some c => simp only []; rw [tokIn_crs (flat_mem h hc) i _ hb, ← crs_ne hb, again_crs (flat_mem h hc)]
  | escaped i => rfl
  | escapedCr i =>
    simp only [Lexis.tok]
    cases hc : L[i]? with
    | none => rfl
    | some c =>
      simp only []
      rw [tokIn_crs (flat_mem h hc) i _ hb, ← crs_ne hb, again_crs (flat_mem h hc), crs_ne hb]
      rfl
  | closing i => rfl

theorem tok_take {L : Lexis} (h : L.flat = true) (m : Mode) (b : Nat) (r : List Nat) : 10 ∉ r.take ((L.tok m (b :: r)).n - 1) := by
  cases m with
  | bad => simp [Lexis.tok]
  | code =>
    simp only [Lexis.tok]
    split
    · next i hi =>
      split
      · next c hc =>
        have hf := flat_mem h hc
        rw [List.findIdx?_eq_some_iff_getElem] at hi
        obtain ⟨h1, h2, -⟩ := hi
        rw [List.getElem?_eq_getElem h1] at hc
        cases hc
        unfold Construct.opens at h2
        rw [Bool.and_eq_true] at h2
        have := prefix_take (flat_op hf).1 h2.1
        unfold Construct.opening
        simp only
        cases hl : (L[i]'h1).op.length with
        | zero => simp
        | succ n => rw [hl, List.take_succ_cons, List.mem_cons, not_or] at this; simpa using this.2
      · simp
    · simp [tokCode]
  | inside i =>
    simp only [Lexis.tok]
    cases hc : L[i]? with
    | none => simp
    | some c => exact tokIn_take (flat_mem h hc) i _ b r
  | escaped i =>
    simp only [Lexis.tok]
    split
    · split <;> simp
    · simp
  | escapedCr i =>
    simp only [Lexis.tok]
    cases hc : L[i]? with
    | none => simp
    | some c =>
      simp only []
      split
      · simp
      · exact tokIn_take (flat_mem h hc) i _ b r
  | closing i =>
    simp only [Lexis.tok]
    split <;> simp

theorem scan_bad (L : Lexis) : ∀ (l : List Nat) (k : Nat) (lb : Kind), (L.scan .bad k lb l).2 = .bad
  | [], k, lb => by cases k <;> rfl
  | b :: r, k + 1, lb => by simp only [Lexis.scan]; exact scan_bad L r k lb
  | b :: r, 0, lb => by simp only [Lexis.scan, Lexis.tok]; exact scan_bad L r _ _

/-- Not after the carriage return of a line end that is protected by a backslash. -/
def noCr : Mode → Bool
  | .escapedCr _ => false
  | _ => true

theorem tokIn_noCr (i : Nat) (c : Construct) (a : Bool) (l : List Nat) : noCr (tokIn i c a l).mode = true := by
  unfold tokIn
  simp only
  split
  · simp only; split <;> rfl
  · split
    · simp only; split
      · rfl
      · split <;> rfl
    · split
      · split
        · rfl
        · simp only [Construct.next]; split <;> rfl
      · simp only [Construct.next]; split <;> rfl

theorem tok_noCr {L : Lexis} {m : Mode} {b : Nat} (hb : b ≠ 13) (r : List Nat) : noCr (L.tok m (b :: r)).mode = true := by
  cases m with
  | bad => rfl
  | code =>
    simp only [Lexis.tok]
    split
    · split
      · unfold Construct.opening; simp only; split
        · rfl
        · split <;> rfl
      · rfl
    · rfl
  | inside i =>
    simp only [Lexis.tok]
    split
    · exact tokIn_noCr _ _ _ _
    · rfl
  | escaped i =>
    simp only [Lexis.tok]
    split
    · have : (b == 13) = false := by simpa using hb
      simp only [List.headD_cons, this]
      split
      · rfl
      · simp only; split <;> rfl
    · rfl
  | escapedCr i =>
    simp only [Lexis.tok]
    split
    · split
      · rfl
      · exact tokIn_noCr _ _ _ _
    · rfl
  | closing i =>
    simp only [Lexis.tok]
    split
    · simp only; split <;> rfl
    · rfl

theorem closer_nl {c : Construct} (h : c.flat = true) {b : Nat} (hb : isNl b = true) (r : List Nat) : c.closer (b :: r) = none := by
  unfold Construct.closer
  rw [List.find?_eq_none]
  intro d hd
  obtain ⟨h1, h2⟩ := flat_cl h hd
  cases d with
  | nil => exact absurd rfl h2
  | cons x d =>
    rw [List.isPrefixOf_cons_cons]
    intro e
    rw [Bool.and_eq_true, beq_iff_eq] at e
    rw [List.any_cons, Bool.or_eq_false_iff, e.1, hb] at h1
    cases h1.1

theorem opens_nl {c : Construct} (h : c.flat = true) {b : Nat} (hb : isNl b = true) (r : List Nat) : c.opens (b :: r) = false := by
  obtain ⟨h1, h2⟩ := flat_op h
  unfold Construct.opens
  cases ho : c.op with
  | nil => exact absurd ho h2
  | cons x d =>
    rw [ho, List.any_cons, Bool.or_eq_false_iff] at h1
    have : (x == b) = false := by
      rw [beq_eq_false_iff_ne]
      intro e
      rw [e, hb] at h1; cases h1.1
    rw [List.isPrefixOf_cons_cons, this]; rfl

theorem tok_code_nl {L : Lexis} (h : L.flat = true) {b : Nat} (hb : isNl b = true) (r : List Nat) : L.tok .code (b :: r) = ⟨1, .lblank, .code⟩ := by
  simp only [Lexis.tok]
  have : List.findIdx? (fun c : Construct => c.opens (b :: r)) L = none := by
    rw [List.findIdx?_eq_none_iff]
    intro c hc
    exact opens_nl (List.all_eq_true.1 h c hc) hb r
  rw [this]
  simp [tokCode, isWhite, hb]

theorem tokIn_nl {c : Construct} (h : c.flat = true) (i : Nat) (a : Bool) {b : Nat} (hb : isNl b = true) (r : List Nat) :
    tokIn i c a (b :: r) = ⟨1, .lblank, if c.cl.isEmpty then .code else if c.lines then .inside i else .bad⟩ := by
  unfold tokIn
  rw [closer_nl h hb]
  simp [hb]

/-- A line feed, and a carriage return and a line feed, lead to the same mode, unless the text is not correct. -/
theorem tok_lf {L : Lexis} (h : L.flat = true) (m : Mode) (hm : noCr m = true) (r r' : List Nat) (hb : (L.tok m (10 :: r)).mode ≠ .bad) :
    ∃ m1 m2, L.tok m (13 :: 10 :: r') = ⟨1, .lblank, m1⟩ ∧ L.tok m1 (10 :: r') = ⟨1, .lblank, m2⟩ ∧ L.tok m (10 :: r) = ⟨1, .lblank, m2⟩ := by
  cases m with
  | bad => exact absurd rfl hb
  | code => exact ⟨.code, .code, tok_code_nl h rfl _, tok_code_nl h rfl _, tok_code_nl h rfl _⟩
  | inside i =>
    simp only [Lexis.tok] at hb ⊢
    cases hc : L[i]? with
    | none => rw [hc] at hb; exact absurd rfl hb
    | some c =>
      have hf := flat_mem h hc
      rw [hc] at hb
      simp only [tokIn_nl hf i _ (b := 10) rfl, tokIn_nl hf i _ (b := 13) rfl] at hb ⊢
      cases he : c.cl.isEmpty with
      | true =>
        refine ⟨.code, .code, rfl, ?_, rfl⟩
        exact tok_code_nl h rfl _
      | false =>
        cases hl : c.lines with
        | true =>
          refine ⟨.inside i, .inside i, rfl, ?_, rfl⟩
          simp only [hc, tokIn_nl hf i _ (b := 10) rfl, he, hl]
          rfl
        | false => rw [he, hl] at hb; exact absurd rfl hb
  | escaped i =>
    simp only [Lexis.tok] at hb ⊢
    cases hc : L[i]? with
    | none => rw [hc] at hb; exact absurd rfl hb
    | some c =>
      rw [hc] at hb
      simp only [List.headD_cons] at hb ⊢
      cases he : c.escNl with
      | true =>
        refine ⟨.escapedCr i, .inside i, rfl, ?_, rfl⟩
        simp only [hc]
        rfl
      | false =>
        rw [he] at hb
        cases hl : c.cl.isEmpty with
        | true =>
          refine ⟨.code, .code, rfl, ?_, rfl⟩
          exact tok_code_nl h rfl _
        | false => rw [hl] at hb; exact absurd rfl hb
  | escapedCr i => cases hm
  | closing i =>
    simp only [Lexis.tok] at hb
    cases hc : L[i]? with
    | none => rw [hc] at hb; exact absurd rfl hb
    | some c =>
      rw [hc] at hb
      simp only [List.headD_cons, cl_nl (flat_mem h hc) (b := 10) rfl] at hb
      exact absurd rfl hb

/-- The labels of the bytes of the text with carriage returns. -/
def wider : List Nat → List Kind → List Kind
  | b :: r, k :: ks => if b = 10 then .lblank :: .lblank :: wider r ks else k :: wider r ks
  | _, _ => []

theorem scan_crs {L : Lexis} (h : L.flat = true) : ∀ (l : List Nat) (m : Mode) (k : Nat) (lb : Kind), 13 ∉ l → noCr m = true → 10 ∉ l.take k →
    (L.scan m k lb l).2 ≠ .bad →
    L.scan m k lb (crs l) = (wider l (L.scan m k lb l).1, (L.scan m k lb l).2) ∧ (∀ j : Nat, l[j]? = some 10 → (L.scan m k lb l).1[j]? = some .lblank)
  | [], m, k, lb, _, _, _, _ => by cases k <;> simp [Lexis.scan, crs, wider]
  | b :: r, m, k + 1, lb, h13, hm, hk, hbad => by
    rw [List.take_succ_cons, List.mem_cons, not_or] at hk
    rw [List.mem_cons, not_or] at h13
    simp only [Lexis.scan] at hbad ⊢
    obtain ⟨i1, i2⟩ := scan_crs h r m k lb h13.2 hm hk.2 hbad
    rw [crs_ne (Ne.symm hk.1)]
    simp only [Lexis.scan, i1, wider, if_neg (Ne.symm hk.1), true_and]
    intro j hj
    cases j with
    | zero => simp at hj; exact absurd hj.symm hk.1
    | succ j => exact i2 j hj
  | b :: r, m, 0, lb, h13, hm, _, hbad => by
    rw [List.mem_cons, not_or] at h13
    simp only [Lexis.scan] at hbad ⊢
    obtain ⟨i1, i2⟩ := scan_crs h r (L.tok m (b :: r)).mode ((L.tok m (b :: r)).n - 1) (L.tok m (b :: r)).lab h13.2
      (tok_noCr (Ne.symm h13.1) r) (tok_take h m b r) hbad
    by_cases hb : b = 10
    · subst hb
      obtain ⟨m1, m2, t1, t2, t3⟩ := tok_lf h m hm r (crs r) (fun e => hbad (by rw [e]; exact scan_bad L _ _ _))
      rw [t3] at i1 i2 ⊢
      rw [crs_lf]
      simp only [Lexis.scan, t1, t2, Nat.sub_self] at i1 i2 ⊢
      rw [i1]
      refine ⟨rfl, ?_⟩
      intro j hj
      cases j with
      | zero => rfl
      | succ j => exact i2 j hj
    · rw [crs_ne hb]
      simp only [Lexis.scan, tok_crs h m hb, i1, wider, if_neg hb, true_and]
      intro j hj
      cases j with
      | zero => simp at hj; exact absurd hj hb
      | succ j => exact i2 j hj

/-! ### Lines -/

theorem endsAt_crlf {b : Byte} (h : b ≠ 13) (r r' : List Byte) : endsAt b r = endsAt b r' := by
  unfold endsAt
  have : (b == 13) = false := by simpa using h
  rw [this]; rfl

theorem walk_crlf : ∀ (T : List Byte) (ks : List Kind) (cur : Kind), 13 ∉ T → ks.length = T.length →
    (∀ j : Nat, (T.map (·.toNat))[j]? = some 10 → ks[j]? = some .lblank) →
    byByte cur (crlf T) (wider (T.map (·.toNat)) ks) = byByte cur T ks
  | [], ks, cur, _, h, _ => by
    cases ks with
    | nil => rfl
    | cons k ks => cases h
  | b :: r, [], cur, _, h, _ => by cases h
  | b :: r, k :: ks, cur, h13, h, hl => by
    rw [List.mem_cons, not_or] at h13
    have ih := fun cur => walk_crlf r ks cur h13.2 (by simpa using h) (fun j hj => hl (j + 1) hj)
    rw [crlf, List.map_cons, wider]
    by_cases hb : b = 10
    · subst hb
      have hk : k = .lblank := by simpa using hl 0 rfl
      subst hk
      have e1 : endsAt 13 (10 :: crlf r) = false := rfl
      have e2 : ∀ r, endsAt 10 r = true := fun _ => rfl
      have e3 : UInt8.toNat 10 = 10 := rfl
      rw [if_pos rfl, if_pos e3]
      simp only [byByte, e1, e2, ih, orKind_blank, if_true, Bool.false_eq_true, if_false]
    · have hb' : b.toNat ≠ 10 := fun e => hb (by apply UInt8.toNat_inj.1; exact e)
      rw [if_neg hb, if_neg hb']
      simp only [byByte, endsAt_crlf (Ne.symm h13.1) (crlf r) r, ih]

theorem plain_crlf {T : List Byte} (h : Plain T) (h13 : 13 ∉ T) : Plain (crlf T) := by
  have h1 : ∀ T : List Byte, 11 ∉ T → 11 ∉ crlf T := by
    intro T
    induction T with
    | nil => exact id
    | cons b r ih =>
      intro h
      rw [List.mem_cons, not_or] at h
      rw [crlf]
      split
      · simp [ih h.2]
      · simp [ih h.2, h.1]
  have h2 : ∀ T : List Byte, 13 ∉ T → (crlf T).getLast? ≠ some 13 := by
    intro T
    induction T with
    | nil => simp [crlf]
    | cons b r ih =>
      intro h
      rw [List.mem_cons, not_or] at h
      have := ih h.2
      rw [crlf]
      split
      · cases hc : crlf r with
        | nil => simp
        | cons x y => rw [hc] at this; rwa [List.getLast?_cons_cons, List.getLast?_cons_cons]
      · cases hc : crlf r with
        | nil => simp; exact fun e => h.1 e.symm
        | cons x y => rw [hc] at this; rwa [List.getLast?_cons_cons]
  exact ⟨h1 T h.1, h2 T h13⟩

theorem endOk_bad {L : Lexis} {m : Mode} (h : L.endOk m = true) : m ≠ .bad := by
  intro e; subst e; cases h

theorem mem_toNat {T : List Byte} {b : Byte} (h : b ∉ T) : b.toNat ∉ T.map (·.toNat) := by
  intro e
  obtain ⟨x, h1, h2⟩ := List.mem_map.1 e
  exact h (by rw [← UInt8.toNat_inj.1 h2]; exact h1)

/-- Carriage returns before the line feeds of a correct text change neither its correctness nor the kinds of its lines. -/
theorem crlf_facts {L : Lexis} (h : L.flat = true) {T : List Byte} (h13 : 13 ∉ T) (hw : L.WellFormed T) :
    L.WellFormed (crlf T) ∧ L.kinds (crlf T) = L.kinds T := by
  have hs := scan_crs h (T.map fun b : Byte => b.toNat) .code 0 .lblank (mem_toNat h13) rfl (by simp) (endOk_bad (L := L) hw)
  rw [← crlf_map] at hs
  refine ⟨?_, ?_⟩
  · unfold Lexis.WellFormed Lexis.all
    rw [hs.1]
    exact hw
  · rw [kinds_walk, kinds_walk]
    have e : L.labels (crlf T) = wider (T.map (·.toNat)) (L.labels T) := by
      unfold Lexis.labels Lexis.all
      rw [hs.1]
    rw [e]
    exact walk_crlf T (L.labels T) .lblank h13 (labels_length L T) hs.2

/-- C107: a text and the same text with carriage returns before its line feeds have lines of the same kinds, whatever was parsed before. -/
theorem C107_kinds (P : Parser) (L : Lexis) (hP : (P, L) ∈ classified) (l l' : Leftover) (T : List Byte) (hp : Plain T) (h13 : 13 ∉ T)
    (hw : L.WellFormed T) : reported P l (crlf T) = reported P l' T := by
  obtain ⟨h1, h2⟩ := crlf_facts (classified_flat _ hP) h13 hw
  rw [reported_eq hP l (plain_crlf hp h13) h1, reported_eq hP l' hp hw, h2]

/-- A C text with a continued comment, a block comment and a continued string. -/
example : (parse_c, LexisTable.c_line) ∈ classified ∧ Plain (bytes "// a \\\nb\n/*\n\n*/\ns = \"\\\n/*\";\n") ∧ 13 ∉ bytes "// a \\\nb\n/*\n\n*/\ns = \"\\\n/*\";\n" ∧
    LexisTable.c_line.WellFormed (bytes "// a \\\nb\n/*\n\n*/\ns = \"\\\n/*\";\n") ∧
    crlf (bytes "// a\nx") = bytes "// a\r\nx" ∧
    reported parse_c {} (crlf (bytes "// a \\\nb\n/*\n\n*/\ns = \"\\\n/*\";\n")) =
      [.lcomment, .lcomment, .lcomment, .lblank, .lcomment, .lcode, .lcode] := by
  refine ⟨by simp [classified], by decide +kernel, by decide +kernel, by decide +kernel, by decide +kernel, by decide +kernel⟩

/-- The text must not have carriage returns already: with another one there is one more line. -/
theorem C107_twice : crlf (bytes "x\r\n") = bytes "x\r\r\n" ∧ reported parse_c {} (bytes "x\r\n") = [.lcode] ∧
    reported parse_c {} (bytes "x\r\r\n") = [.lcode, .lblank] := by
  refine ⟨by decide +kernel, by decide +kernel, by decide +kernel⟩

/-! ### Indentation -/

/-- Spaces and tabs. -/
def isIndent (W : List Byte) : Bool := W.all fun b => b == 32 || b == 9

/-- No comment or string opens with a space or a tab. -/
def Lexis.inked (L : Lexis) : Bool := List.all L fun c => match c.op with | b :: _ => b != 32 && b != 9 | [] => false

theorem classified_inked : ∀ x ∈ classified, Lexis.inked x.2 = true := by
  have : (classified.all fun x => Lexis.inked x.2) = true := by decide +kernel
  exact fun x hx => List.all_eq_true.1 this x hx

theorem opens_indent {L : Lexis} (h : L.inked = true) {b : Nat} (hb : b = 32 ∨ b = 9) (r : List Nat) :
    List.findIdx? (fun c : Construct => c.opens (b :: r)) L = none := by
  rw [List.findIdx?_eq_none_iff]
  intro c hc
  have := List.all_eq_true.1 h c hc
  unfold Construct.opens
  cases ho : c.op with
  | nil => rw [ho] at this; cases this
  | cons x d =>
    rw [ho] at this
    simp only [Bool.and_eq_true, bne_iff_ne] at this
    have e : (x == b) = false := by
      rw [beq_eq_false_iff_ne]
      rcases hb with rfl | rfl
      · exact this.1
      · exact this.2
    rw [List.isPrefixOf_cons_cons, e]; rfl

theorem scan_indent {L : Lexis} (h : L.inked = true) (l : List Nat) : ∀ (W : List Nat) (lb : Kind), (∀ b ∈ W, b = 32 ∨ b = 9) →
    ∃ lb', L.scan .code 0 lb (W ++ l) = (List.replicate W.length .lblank ++ (L.scan .code 0 lb' l).1, (L.scan .code 0 lb' l).2)
  | [], lb, _ => ⟨lb, rfl⟩
  | b :: W, lb, hW => by
    have hb := hW b (.head _)
    have ht : L.tok .code (b :: (W ++ l)) = ⟨1, .lblank, .code⟩ := by
      simp only [Lexis.tok]
      rw [opens_indent h hb]
      rcases hb with rfl | rfl <;> rfl
    obtain ⟨lb', ih⟩ := scan_indent h l W .lblank fun x hx => hW x (.tail _ hx)
    refine ⟨lb', ?_⟩
    rw [List.cons_append]
    simp only [Lexis.scan, ht, Nat.sub_self, ih, List.length_cons, List.replicate_succ, List.cons_append]

theorem scan_lb (L : Lexis) (m : Mode) (lb lb' : Kind) (l : List Nat) : L.scan m 0 lb l = L.scan m 0 lb' l := by
  cases l <;> simp only [Lexis.scan]

theorem all_indent {L : Lexis} (h : L.inked = true) {W : List Byte} (hW : isIndent W = true) (T : List Byte) :
    L.all (W ++ T) = (List.replicate W.length .lblank ++ L.labels T, (L.all T).2) := by
  have hW' : ∀ b ∈ W.map (fun b : Byte => b.toNat), b = 32 ∨ b = 9 := by
    intro b hb
    obtain ⟨x, h1, rfl⟩ := List.mem_map.1 hb
    have := List.all_eq_true.1 hW x h1
    simp only [Bool.or_eq_true, beq_iff_eq] at this
    rcases this with rfl | rfl
    · exact .inl rfl
    · exact .inr rfl
  obtain ⟨lb', e⟩ := scan_indent h (T.map fun b : Byte => b.toNat) _ .lblank hW'
  unfold Lexis.labels Lexis.all
  rw [List.map_append, e, scan_lb L .code lb' .lblank, List.length_map]

theorem byByte_indent (T : List Byte) (ks : List Kind) : ∀ (W : List Byte) (cur : Kind), isIndent W = true →
    byByte cur (W ++ T) (List.replicate W.length .lblank ++ ks) = byByte cur T ks
  | [], cur, _ => rfl
  | b :: W, cur, h => by
    unfold isIndent at h
    rw [List.all_cons, Bool.and_eq_true] at h
    have e : endsAt b (W ++ T) = false := by
      have := h.1
      simp only [Bool.or_eq_true, beq_iff_eq] at this
      rcases this with rfl | rfl <;> rfl
    rw [List.cons_append, List.length_cons, List.replicate_succ, List.cons_append]
    simp only [byByte, e, Bool.false_eq_true, if_false, orKind_blank]
    exact byByte_indent T ks W cur h.2

theorem indent_facts {L : Lexis} (h : L.inked = true) {W : List Byte} (hW : isIndent W = true) (T : List Byte) :
    (L.all (W ++ T)).2 = (L.all T).2 ∧ L.kinds (W ++ T) = L.kinds T := by
  have e := all_indent h hW T
  refine ⟨by rw [e], ?_⟩
  rw [kinds_walk, kinds_walk]
  have : L.labels (W ++ T) = List.replicate W.length .lblank ++ L.labels T := by
    conv => lhs; unfold Lexis.labels
    rw [e]
  rw [this, byByte_indent T _ W .lblank hW]

theorem plain_indent {W T : List Byte} (hW : isIndent W = true) (h : Plain T) : Plain (W ++ T) := by
  refine plain_append ⟨?_, ?_⟩ h
  · intro e
    have := List.all_eq_true.1 hW _ e
    cases this
  · intro e
    have := List.all_eq_true.1 hW _ (List.mem_of_getLast? e)
    cases this

/-- Pieces of a text, and a last text, and the same with their indentations. -/
theorem indented_facts {L : Lexis} (hf : L.flat = true) (hi : L.inked = true) (Ts : List (List Byte × List Byte))
    (hT : ∀ q ∈ Ts, isIndent q.1 = true ∧ q.2 ≠ [] ∧ L.Piece q.2 ∧ Plain q.2) (W X : List Byte) (hW : isIndent W = true) (hX : Plain X)
    (hw : L.WellFormed X) :
    (Plain ((Ts.map (·.2)).flatten ++ X) ∧ L.WellFormed ((Ts.map (·.2)).flatten ++ X)) ∧
    (Plain ((Ts.map fun q => q.1 ++ q.2).flatten ++ (W ++ X)) ∧ L.WellFormed ((Ts.map fun q => q.1 ++ q.2).flatten ++ (W ++ X))) ∧
    L.kinds ((Ts.map fun q => q.1 ++ q.2).flatten ++ (W ++ X)) = L.kinds ((Ts.map (·.2)).flatten ++ X) := by
  have hwX : L.WellFormed (W ++ X) := by
    unfold Lexis.WellFormed
    rw [(indent_facts hi hW X).1]; exact hw
  obtain ⟨a1, a2, a3⟩ := parts_facts hf X hX hw (Ts.map (·.2)) (by
    intro T h
    obtain ⟨q, h1, rfl⟩ := List.mem_map.1 h
    exact (hT q h1).2.2)
  obtain ⟨b1, b2, b3⟩ := parts_facts hf (W ++ X) (plain_indent hW hX) hwX (Ts.map fun q => q.1 ++ q.2) (by
    intro T h
    obtain ⟨q, h1, rfl⟩ := List.mem_map.1 h
    obtain ⟨g1, g2, g3, g4⟩ := hT q h1
    refine ⟨⟨?_, ?_⟩, plain_indent g1 g4⟩
    · right
      rcases g3.1 with e | e
      · exact absurd e g2
      · rw [List.getLast?_append, e]; rfl
    · rw [(indent_facts hi g1 q.2).1]; exact g3.2)
  refine ⟨⟨a1, a2⟩, ⟨b1, b2⟩, ?_⟩
  rw [a3, b3, (indent_facts hi hW X).2, List.map_map, List.map_map]
  congr 2
  refine List.map_congr_left fun q h => ?_
  exact (indent_facts hi (hT q h).1 q.2).2

/-- C108: pieces of a text are indented, each by its own spaces and tabs: the lines have the same kinds as before. -/
theorem C108_kinds (P : Parser) (L : Lexis) (hP : (P, L) ∈ classified) (l l' : Leftover) (Ts : List (List Byte × List Byte))
    (hT : ∀ q ∈ Ts, isIndent q.1 = true ∧ q.2 ≠ [] ∧ L.Piece q.2 ∧ Plain q.2) (W X : List Byte) (hW : isIndent W = true) (hX : Plain X)
    (hw : L.WellFormed X) :
    reported P l ((Ts.map fun q => q.1 ++ q.2).flatten ++ (W ++ X)) = reported P l' ((Ts.map (·.2)).flatten ++ X) := by
  obtain ⟨a, b, c⟩ := indented_facts (classified_flat _ hP) (classified_inked _ hP) Ts hT W X hW hX hw
  rw [reported_eq hP l b.1 b.2, reported_eq hP l' a.1 a.2, c]

/-- A C comment over two lines is a piece; only its first line is indented. -/
example : (parse_c, LexisTable.c_line) ∈ classified ∧
    (∀ q ∈ [(bytes "\t ", bytes "/* a\n b */\n"), (bytes "", bytes "x; // y\n"), (bytes "  ", bytes "\n")],
      isIndent q.1 = true ∧ q.2 ≠ [] ∧ LexisTable.c_line.Piece q.2 ∧ Plain q.2) ∧ isIndent (bytes "\t") = true ∧ Plain (bytes "}") ∧
    LexisTable.c_line.WellFormed (bytes "}") ∧
    reported parse_c {} (bytes "\t /* a\n b */\nx; // y\n  \n\t}") = [.lcomment, .lcomment, .lcode, .lblank, .lcode] := by
  refine ⟨by simp [classified], by decide +kernel, by decide +kernel, by decide +kernel, by decide +kernel, by decide +kernel⟩

/-- Lines inside of a string must be excluded: in PHP a blank line in a string is blank, one with a space is code. -/
theorem C108_string : reported parse_php {} (bytes "<?php\n$a = '\n\n';\n?>\n") ≠ reported parse_php {} (bytes "<?php\n$a = '\n \n';\n?>\n") := by
  decide +kernel

end Ohcount.Ragel

namespace Ohcount.LibraryProps
open Ohcount.Ragel Ohcount.Gram Ohcount.Cert Ohcount.LocProps

/-- The counts that a file shows are the numbers of its lines of each kind. -/
theorem file_shown (mc : Host) (before : Byte) (disk : Disk) (P : Parser) (L : Lexis) (hP : (P, L) ∈ classified)
    (hT : (bytes P.lang, P.name) ∈ Tables.parsers) (path text : Bytes) (hn : Named P.lang path) (hd : disk path = some text)
    (hp : Plain text) (hw : L.WellFormed text) :
    ∃ w A, step (library mc) ⟨SourceFile.new before path, disk⟩ .getLoc = some (w, .loc A) ∧
      (shown A P.lang).code = ((L.kinds text).count .lcode : Int) ∧ (shown A P.lang).comments = ((L.kinds text).count .lcomment : Int) ∧
      (shown A P.lang).blanks = ((L.kinds text).count .lblank : Int) := by
  obtain ⟨stem, e, g1, g2⟩ := hn
  obtain ⟨w, h⟩ := C59_file mc before disk path P.lang _ (Known.lexis stem e P L text g1 g2 hP hT hd hp hw)
  obtain ⟨s1, s2, s3⟩ := shown_countsOf P.lang (L.lines text)
  refine ⟨w, _, h, ?_, ?_, ?_⟩
  · rw [s1, linesOf_count]; rfl
  · rw [s2, linesOf_count]; rfl
  · rw [s3, linesOf_count]; rfl

/-- C107 for files: two files that differ in their line ends show the same counts. -/
theorem C107_files (mc : Host) (before : Byte) (disk : Disk) (P : Parser) (L : Lexis) (hP : (P, L) ∈ classified)
    (hT : (bytes P.lang, P.name) ∈ Tables.parsers) (p q text : Bytes) (hn : Named P.lang p) (hm : Named P.lang q)
    (hd : disk p = some text) (he : disk q = some (crlf text)) (hp : Plain text) (h13 : 13 ∉ text) (hw : L.WellFormed text) :
    ∃ w A w' A', step (library mc) ⟨SourceFile.new before p, disk⟩ .getLoc = some (w, .loc A) ∧
      step (library mc) ⟨SourceFile.new before q, disk⟩ .getLoc = some (w', .loc A') ∧
      (shown A P.lang).code = (shown A' P.lang).code ∧ (shown A P.lang).comments = (shown A' P.lang).comments ∧
      (shown A P.lang).blanks = (shown A' P.lang).blanks := by
  obtain ⟨h1, h2⟩ := crlf_facts (classified_flat _ hP) h13 hw
  obtain ⟨w, A, a0, a1, a2, a3⟩ := file_shown mc before disk P L hP hT p text hn hd hp hw
  obtain ⟨w', A', b0, b1, b2, b3⟩ := file_shown mc before disk P L hP hT q _ hm he (plain_crlf hp h13) h1
  refine ⟨w, A, w', A', a0, b0, ?_, ?_, ?_⟩
  · rw [a1, b1, h2]
  · rw [a2, b2, h2]
  · rw [a3, b3, h2]

/-- The hypotheses are met by two Java files. -/
example :
    let a := bytes "/* a\n\n \" */\ns = \"/*\"; // '\n}"
    let disk : Disk := fun p => if p = bytes "a.java" then some a else if p = bytes "b.java" then some (crlf a) else none
    (parse_java, LexisTable.java_line) ∈ classified ∧ (bytes parse_java.lang, parse_java.name) ∈ Tables.parsers ∧
    (∀ q ∈ [bytes "a.java", bytes "b.java"], Named "java" q) ∧
    disk (bytes "a.java") = some a ∧ disk (bytes "b.java") = some (crlf a) ∧ Plain a ∧ 13 ∉ a ∧ LexisTable.java_line.WellFormed a := by
  refine ⟨by simp [classified], by decide +kernel, ?_, by decide +kernel, by decide +kernel, by decide +kernel, by decide +kernel, by decide +kernel⟩
  intro q hq
  simp only [List.mem_cons, List.not_mem_nil, or_false] at hq
  rcases hq with rfl | rfl
  · exact ⟨bytes "a", bytes "java", by decide +kernel, by decide +kernel⟩
  · exact ⟨bytes "b", bytes "java", by decide +kernel, by decide +kernel⟩

/-- C108 for files: two files that differ in the indentation of their pieces show the same counts. -/
theorem C108_files (mc : Host) (before : Byte) (disk : Disk) (P : Parser) (L : Lexis) (hP : (P, L) ∈ classified)
    (hT : (bytes P.lang, P.name) ∈ Tables.parsers) (p q : Bytes) (hn : Named P.lang p) (hm : Named P.lang q)
    (Ts : List (List Byte × List Byte)) (hTs : ∀ x ∈ Ts, isIndent x.1 = true ∧ x.2 ≠ [] ∧ L.Piece x.2 ∧ Plain x.2) (W X : List Byte)
    (hW : isIndent W = true) (hX : Plain X) (hw : L.WellFormed X) (hd : disk p = some ((Ts.map (·.2)).flatten ++ X))
    (he : disk q = some ((Ts.map fun x => x.1 ++ x.2).flatten ++ (W ++ X))) :
    ∃ w A w' A', step (library mc) ⟨SourceFile.new before p, disk⟩ .getLoc = some (w, .loc A) ∧
      step (library mc) ⟨SourceFile.new before q, disk⟩ .getLoc = some (w', .loc A') ∧
      (shown A P.lang).code = (shown A' P.lang).code ∧ (shown A P.lang).comments = (shown A' P.lang).comments ∧
      (shown A P.lang).blanks = (shown A' P.lang).blanks := by
  obtain ⟨a, b, c⟩ := indented_facts (classified_flat _ hP) (classified_inked _ hP) Ts hTs W X hW hX hw
  obtain ⟨w, A, a0, a1, a2, a3⟩ := file_shown mc before disk P L hP hT p _ hn hd a.1 a.2
  obtain ⟨w', A', b0, b1, b2, b3⟩ := file_shown mc before disk P L hP hT q _ hm he b.1 b.2
  refine ⟨w, A, w', A', a0, b0, ?_, ?_, ?_⟩
  · rw [a1, b1, c]
  · rw [a2, b2, c]
  · rw [a3, b3, c]

/-- The hypotheses are met by two Java files. -/
example :
    let Ts := [(bytes "\t", bytes "/* a\n\n */\n"), (bytes "  ", bytes "x;\n")]
    let a := bytes "/* a\n\n */\nx;\n}"
    let b := bytes "\t/* a\n\n */\n  x;\n }"
    let disk : Disk := fun p => if p = bytes "a.java" then some a else if p = bytes "b.java" then some b else none
    (parse_java, LexisTable.java_line) ∈ classified ∧ (bytes parse_java.lang, parse_java.name) ∈ Tables.parsers ∧
    (∀ x ∈ Ts, isIndent x.1 = true ∧ x.2 ≠ [] ∧ LexisTable.java_line.Piece x.2 ∧ Plain x.2) ∧ isIndent (bytes " ") = true ∧ Plain (bytes "}") ∧
    LexisTable.java_line.WellFormed (bytes "}") ∧ disk (bytes "a.java") = some ((Ts.map (·.2)).flatten ++ bytes "}") ∧
    disk (bytes "b.java") = some ((Ts.map fun x => x.1 ++ x.2).flatten ++ (bytes " " ++ bytes "}")) := by
  refine ⟨by simp [classified], by decide +kernel, by decide +kernel, by decide +kernel, by decide +kernel, by decide +kernel, by decide +kernel,
    by decide +kernel⟩

end Ohcount.LibraryProps
