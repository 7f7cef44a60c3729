import Verif.EmbedLines
import Verif.LibraryProps

/-!
C106: the counts of a file that is put together from pieces are the sums of the counts of the pieces.
-/

namespace Ohcount.Ragel
open Gram Cert

/-- The text consists of complete lines and leaves no comment or string open. -/
def Lexis.Piece (L : Lexis) (T : List Byte) : Prop := (T = [] ∨ T.getLast? = some 10) ∧ (L.all T).2 = .code

instance (L : Lexis) (T : List Byte) : Decidable (L.Piece T) := by unfold Lexis.Piece; infer_instance

/-- No delimiter of the construct has a line end, or is empty. -/
def Construct.flat (c : Construct) : Bool :=
  (c.op :: (c.avoid ++ c.cl)).all fun d => !d.isEmpty && !d.any isNl

/-- The same for all constructs of a language. -/
def Lexis.flat (L : Lexis) : Bool := List.all L Construct.flat

/-! ### Reading a text does not look beyond a line end -/

/-- The text is empty or ends with a line feed. -/
def EndsNl (l : List Nat) : Prop := l = [] ∨ l.getLast? = some 10

theorem EndsNl.tail {b : Nat} {r : List Nat} (h : EndsNl (b :: r)) : EndsNl r := by
  cases r with
  | nil => exact .inl rfl
  | cons c r =>
    rcases h with h | h
    · cases h
    · right; rwa [List.getLast?_cons_cons] at h

theorem EndsNl.drop {l : List Nat} (h : EndsNl l) : ∀ n, EndsNl (l.drop n) := by
  intro n
  induction n generalizing l with
  | zero => exact h
  | succ n ih =>
    cases l with
    | nil => exact .inl (by simp)
    | cons b r => rw [List.drop_succ_cons]; exact ih h.tail

theorem EndsNl.cons {b : Nat} {r : List Nat} (h : EndsNl (b :: r)) (hb : isNl b = false) : r ≠ [] := by
  intro e
  subst e
  rcases h with h | h
  · cases h
  · cases h; cases hb

theorem prefix_local : ∀ (d l X : List Nat), (d.any isNl = false) → EndsNl l → l ≠ [] → d.isPrefixOf (l ++ X) = d.isPrefixOf l
  | [], l, X, _, _, _ => by simp
  | x :: d, [], X, _, _, hn => absurd rfl hn
  | x :: d, b :: r, X, hd, he, _ => by
    rw [List.any_cons, Bool.or_eq_false_iff] at hd
    rw [List.cons_append, List.isPrefixOf_cons_cons, List.isPrefixOf_cons_cons]
    by_cases e : x = b
    · subst e
      rw [prefix_local d r X hd.2 he.tail (he.cons hd.1)]
    · have : (x == b) = false := by simpa using e
      rw [this]; rfl

theorem prefix_len {d l : List Nat} (h : d.isPrefixOf l = true) : d.length ≤ l.length :=
  (List.isPrefixOf_iff_prefix.1 h).length_le

theorem look_nl (c : Construct) (st b st' : Nat) (h : c.look st b = .inr st') : isNl b = false := by
  unfold Construct.look at h
  split at h
  · split at h
    · cases h
    · split at h
      · cases h
      · next hb => simpa using hb
  · split at h
    · cases h
    · next hb => simpa using hb
  · split at h
    · cases h
    · next hb => simp only [Bool.or_eq_true, not_or, Bool.not_eq_true] at hb; exact hb.2
  · split at h
    · cases h
    · next hb => simpa using hb
  · cases h

theorem shut_local (c : Construct) : ∀ (l X : List Nat) (st : Nat), EndsNl l → l ≠ [] → c.shut st (l ++ X) = c.shut st l
  | [], X, st, _, hn => absurd rfl hn
  | b :: r, X, st, he, _ => by
    rw [List.cons_append]
    unfold Construct.shut
    cases hx : c.look st b with
    | inl x => rfl
    | inr st' => exact shut_local c r X st' he.tail (he.cons (look_nl c st b st' hx))

theorem prefix_rest {d l : List Nat} (hd : d.any isNl = false) (he : EndsNl l) (hn : l ≠ []) (h : d.isPrefixOf l = true) :
    l.drop d.length ≠ [] := by
  obtain ⟨t, rfl⟩ := List.isPrefixOf_iff_prefix.1 h
  rw [List.drop_left]
  intro e
  subst e
  rw [List.append_nil] at he hn
  rcases he with he | he
  · exact hn he
  · have := List.mem_of_getLast? he
    rw [List.any_eq_false] at hd
    exact hd 10 this rfl

theorem flat_op {c : Construct} (h : c.flat = true) : c.op.any isNl = false ∧ c.op ≠ [] := by
  have := List.all_eq_true.1 h c.op (.head _)
  simp only [Bool.and_eq_true, Bool.not_eq_true', List.isEmpty_eq_false_iff] at this
  exact ⟨this.2, this.1⟩

theorem flat_cl {c : Construct} (h : c.flat = true) {d : List Nat} (hd : d ∈ c.avoid ++ c.cl) : d.any isNl = false ∧ d ≠ [] := by
  have := List.all_eq_true.1 h d (.tail _ hd)
  simp only [Bool.and_eq_true, Bool.not_eq_true', List.isEmpty_eq_false_iff] at this
  exact ⟨this.2, this.1⟩

theorem drop_app {l X : List Nat} {n : Nat} (h : n ≤ l.length) : (l ++ X).drop n = l.drop n ++ X := List.drop_append_of_le_length h

theorem opens_local {c : Construct} (h : c.flat = true) {l X : List Nat} (he : EndsNl l) (hn : l ≠ []) : c.opens (l ++ X) = c.opens l := by
  have ho := (flat_op h).1
  unfold Construct.opens
  rw [prefix_local c.op l X ho he hn]
  cases hp : c.op.isPrefixOf l with
  | false => rfl
  | true =>
    rw [drop_app (prefix_len hp), shut_local c _ X _ (he.drop _) (prefix_rest ho he hn hp)]

theorem find_congr {α : Type} {p q : α → Bool} : ∀ (l : List α), (∀ x ∈ l, p x = q x) → l.find? p = l.find? q
  | [], _ => rfl
  | x :: l, h => by rw [List.find?_cons, List.find?_cons, h x (.head _), find_congr l fun y hy => h y (.tail _ hy)]

theorem findIdx_congr {α : Type} {p q : α → Bool} : ∀ (l : List α), (∀ x ∈ l, p x = q x) → l.findIdx? p = l.findIdx? q
  | [], _ => rfl
  | x :: l, h => by rw [List.findIdx?_cons, List.findIdx?_cons, h x (.head _), findIdx_congr l fun y hy => h y (.tail _ hy)]

theorem closer_local {c : Construct} (h : c.flat = true) {l X : List Nat} (he : EndsNl l) (hn : l ≠ []) : c.closer (l ++ X) = c.closer l :=
  find_congr _ fun d hd => prefix_local d l X (flat_cl h hd).1 he hn

theorem closer_mem {c : Construct} {l x : List Nat} (h : c.closer l = some x) : x ∈ c.avoid ++ c.cl ∧ x.isPrefixOf l = true :=
  ⟨List.mem_of_find?_eq_some h, by simpa using List.find?_some h⟩

theorem again_local {c : Construct} (h : c.flat = true) {l X : List Nat} (he : EndsNl l) (hn : l ≠ []) : c.again (l ++ X) = c.again l := by
  unfold Construct.again
  rw [closer_local h he hn]
  cases hx : c.closer l with
  | none => rfl
  | some x =>
    obtain ⟨h1, h2⟩ := closer_mem hx
    simp only
    rw [drop_app (prefix_len h2), shut_local c _ X _ (he.drop _) (prefix_rest (flat_cl h h1).1 he hn h2)]

theorem nl92 : isNl 92 = false := rfl

theorem tokIn_local {c : Construct} (h : c.flat = true) (i : Nat) (a : Bool) {b : Nat} {r X : List Nat} (he : EndsNl (b :: r)) :
    tokIn i c a ((b :: r) ++ X) = tokIn i c a (b :: r) := by
  unfold tokIn
  rw [closer_local h he (by simp)]
  have hh : ((b :: r) ++ X).headD 0 = (b :: r).headD 0 := rfl
  simp only [hh]
  split
  · rfl
  · split
    · rfl
    · split
      · next hb =>
        have hb : b = 92 := by simp only [List.headD_cons, Bool.and_eq_true, beq_iff_eq] at hb; exact hb.2
        subst hb
        cases r with
        | nil => exact absurd rfl (he.cons nl92)
        | cons b' r => rfl
      · rfl

theorem tokIn_len {c : Construct} (i : Nat) (a : Bool) {b : Nat} {r : List Nat} (he : EndsNl (b :: r)) :
    (tokIn i c a (b :: r)).n ≤ r.length + 1 := by
  unfold tokIn
  simp only
  split
  · next x hx =>
    split at hx
    · cases hx
    · have := prefix_len (closer_mem hx).2
      simpa using this
  · split
    · simp
    · split
      · next hb =>
        have hb : b = 92 := by simp only [List.headD_cons, Bool.and_eq_true, beq_iff_eq] at hb; exact hb.2
        subst hb
        cases r with
        | nil => exact absurd rfl (he.cons nl92)
        | cons b' r => split <;> (try split) <;> simp
      · simp

theorem flat_mem {L : Lexis} (h : L.flat = true) {i : Nat} {c : Construct} (hc : L[i]? = some c) : c.flat = true :=
  List.all_eq_true.1 h c (List.mem_of_getElem? hc)

theorem tok_local {L : Lexis} (h : L.flat = true) (m : Mode) {b : Nat} {r X : List Nat} (he : EndsNl (b :: r)) :
    L.tok m ((b :: r) ++ X) = L.tok m (b :: r) := by
  cases m with
  | bad => rfl
  | code =>
    simp only [Lexis.tok]
    have : List.findIdx? (fun c : Construct => c.opens ((b :: r) ++ X)) L = List.findIdx? (fun c : Construct => c.opens (b :: r)) L :=
      findIdx_congr L fun c hc => opens_local (List.all_eq_true.1 h c hc) he (by simp)
    rw [this]; rfl
  | inside i =>
    simp only [Lexis.tok]
    cases hc : L[i]? with
    | none => rfl
    | some c => simp only []; rw [again_local (flat_mem h hc) he (by simp), tokIn_local (flat_mem h hc) i _ he]
  | escaped i => rfl
  | escapedCr i =>
    simp only [Lexis.tok]
    cases hc : L[i]? with
    | none => rfl
    | some c =>
      simp only []
      rw [again_local (flat_mem h hc) he (by simp), tokIn_local (flat_mem h hc) i _ he]
      rfl
  | closing i => rfl

theorem tok_len {L : Lexis} (m : Mode) {b : Nat} {r : List Nat} (he : EndsNl (b :: r)) : (L.tok m (b :: r)).n ≤ r.length + 1 := by
  cases m with
  | bad => simp [Lexis.tok]
  | code =>
    simp only [Lexis.tok]
    split
    · next i hi =>
      split
      · next c hc =>
        rw [List.findIdx?_eq_some_iff_getElem] at hi
        obtain ⟨h1, h2, -⟩ := hi
        rw [List.getElem?_eq_getElem h1] at hc
        cases hc
        unfold Construct.opens at h2
        rw [Bool.and_eq_true] at h2
        simpa [Construct.opening] using prefix_len h2.1
      · simp
    · simp [tokCode]
  | inside i =>
    simp only [Lexis.tok]
    split
    · exact tokIn_len i _ he
    · simp
  | escaped i =>
    simp only [Lexis.tok]
    split
    · split <;> simp
    · simp
  | escapedCr i =>
    simp only [Lexis.tok]
    split
    · split
      · simp
      · exact tokIn_len i _ he
    · simp
  | closing i =>
    simp only [Lexis.tok]
    split <;> simp

/-- Reading two texts, the first of which ends with a line feed. -/
theorem scan_append {L : Lexis} (h : L.flat = true) (X : List Nat) : ∀ (l : List Nat) (m : Mode) (k : Nat) (lb : Kind), EndsNl l → k ≤ l.length →
    L.scan m k lb (l ++ X) = ((L.scan m k lb l).1 ++ (L.scan (L.scan m k lb l).2 0 .lblank X).1, (L.scan (L.scan m k lb l).2 0 .lblank X).2)
  | [], m, k, lb, _, hk => by
    have : k = 0 := by simpa using hk
    subst this
    cases X with
    | nil => rfl
    | cons x X => rfl
  | b :: r, m, k + 1, lb, he, hk => by
    have ih := scan_append h X r m k lb he.tail (by simpa using hk)
    rw [List.cons_append]
    simp only [Lexis.scan, ih, List.cons_append]
  | b :: r, m, 0, lb, he, _ => by
    have hl := tok_len (L := L) m he
    have ih := scan_append h X r (L.tok m (b :: r)).mode ((L.tok m (b :: r)).n - 1) (L.tok m (b :: r)).lab he.tail (by omega)
    have ht := tok_local h m (X := X) he
    rw [List.cons_append] at ht ⊢
    simp only [Lexis.scan, ht, ih, List.cons_append]

theorem scan_length (L : Lexis) : ∀ (l : List Nat) (m : Mode) (k : Nat) (lb : Kind), (L.scan m k lb l).1.length = l.length
  | [], _, _, _ => by simp [Lexis.scan]
  | b :: r, m, k + 1, lb => by simp [Lexis.scan, scan_length L r]
  | b :: r, m, 0, lb => by simp [Lexis.scan, scan_length L r]

theorem labels_length (L : Lexis) (T : List Byte) : (L.labels T).length = T.length := by
  simp [Lexis.labels, Lexis.all, scan_length]

theorem all_append {L : Lexis} (h : L.flat = true) {T : List Byte} (hT : L.Piece T) (X : List Byte) :
    L.all (T ++ X) = (L.labels T ++ L.labels X, (L.all X).2) := by
  obtain ⟨h1, h2⟩ := hT
  have he : EndsNl (T.map (·.toNat)) := by
    rcases h1 with h1 | h1
    · exact .inl (by simp [h1])
    · exact .inr (by simp [h1])
  have := scan_append h (X.map (·.toNat)) (T.map (·.toNat)) .code 0 .lblank he (Nat.zero_le _)
  unfold Lexis.all at h2 ⊢
  rw [List.map_append, this, h2]
  rfl

/-! ### Lines -/

theorem lastStart_le (T : List Byte) : lastStart T ≤ T.length := by
  unfold lastStart
  rw [List.getLastD_eq_getLast?]
  cases h : (lineEnds T).getLast? with
  | none => simp
  | some x =>
    have := List.mem_of_getLast? h
    unfold lineEnds at this
    have := List.mem_range.1 (List.mem_filter.1 this).1
    simp; omega

theorem lastStart_append {T : List Byte} (hT : T = [] ∨ T.getLast? = some 10) (X : List Byte) : lastStart (T ++ X) = T.length + lastStart X := by
  rcases hT with rfl | hT
  · simp
  · unfold lastStart
    rw [lineEnds_append hT, List.getLastD_eq_getLast?, List.getLast?_append, List.getLast?_map]
    have hl := lineEnds_last hT
    rw [List.getLastD_eq_getLast?] at hl ⊢
    cases h : (lineEnds X).getLast? with
    | none => simpa using hl
    | some x => simp

theorem lastStart_piece {T : List Byte} (hT : T = [] ∨ T.getLast? = some 10) : lastStart T = T.length := by
  rcases hT with rfl | hT
  · rfl
  · exact lineEnds_last hT

theorem plain_append {T X : List Byte} (hT : Plain T) (hX : Plain X) : Plain (T ++ X) := by
  refine ⟨fun h => (List.mem_append.1 h).elim hT.1 hX.1, ?_⟩
  rw [List.getLast?_append]
  cases h : X.getLast? with
  | none => simpa using hT.2
  | some x => have := hX.2; rw [h] at this; simpa using this

/-- The kinds of the lines of a text. -/
def Lexis.kinds (L : Lexis) (T : List Byte) : List Kind := (L.lines T).map (·.2.2)

theorem lineKind_left {L : Lexis} (h : L.flat = true) {T : List Byte} (hT : L.Piece T) (X : List Byte) {x y : Nat} (hy : y ≤ T.length) :
    L.lineKind (T ++ X) x y = L.lineKind T x y := by
  unfold Lexis.lineKind
  have e : L.labels (T ++ X) = L.labels T ++ L.labels X := by unfold Lexis.labels; rw [all_append h hT X]; rfl
  have hl := labels_length L T
  rw [e]
  by_cases hx : x ≤ T.length
  · rw [List.drop_append_of_le_length (by omega), List.take_append_of_le_length (by rw [List.length_drop]; omega)]
  · have : y - x = 0 := by omega
    rw [this, List.take_zero, List.take_zero]

theorem lineKind_right {L : Lexis} (h : L.flat = true) {T : List Byte} (hT : L.Piece T) (X : List Byte) (x y : Nat) :
    L.lineKind (T ++ X) (T.length + x) (T.length + y) = L.lineKind X x y := by
  unfold Lexis.lineKind
  have e : L.labels (T ++ X) = L.labels T ++ L.labels X := by unfold Lexis.labels; rw [all_append h hT X]; rfl
  rw [e, ← labels_length L T, List.drop_append]
  simp only [List.drop_eq_nil_of_le (Nat.le_add_right _ _), List.nil_append, Nat.add_sub_add_left, Nat.add_sub_cancel_left]

/-- The kinds of the lines of two texts, the first of which is a piece. -/
theorem kinds_append {L : Lexis} (h : L.flat = true) {T : List Byte} (hT : L.Piece T) (X : List Byte) :
    L.kinds (T ++ X) = L.kinds T ++ L.kinds X := by
  have hlast := lastStart_piece hT.1
  have hT0 : L.kinds T = (terminated T).map fun x => L.lineKind T x.1 x.2 := by
    unfold Lexis.kinds Lexis.lines
    have hk : L.lineKind T (lastStart T) T.length = .lblank := by
      unfold Lexis.lineKind
      rw [hlast, Nat.sub_self, List.take_zero]; rfl
    simp only [hk]
    simp
  have hX : ∀ U : List Byte, L.kinds U = ((terminated U).map fun x => L.lineKind U x.1 x.2) ++
      (if L.lineKind U (lastStart U) U.length = .lblank then [] else [L.lineKind U (lastStart U) U.length]) := by
    intro U
    unfold Lexis.kinds Lexis.lines
    rw [List.map_append, List.map_map]
    congr 1
    simp only
    split <;> rfl
  rw [hX (T ++ X), hT0, hX X, terminated_append hT.1, lastStart_append hT.1, List.length_append, lineKind_right h hT, List.map_append,
    List.map_map, List.append_assoc]
  congr 1
  · refine List.map_congr_left fun x hx => ?_
    refine lineKind_left h hT X ?_
    have := (LibraryProps.terminated_facts T).2 x hx
    rw [hlast] at this; exact this.1
  · congr 1
    exact List.map_congr_left fun x _ => lineKind_right h hT X x.1 x.2

theorem wellFormed_append {L : Lexis} (h : L.flat = true) {T : List Byte} (hT : L.Piece T) (X : List Byte) :
    L.WellFormed (T ++ X) ↔ L.WellFormed X := by
  unfold Lexis.WellFormed
  rw [all_append h hT X]

theorem piece_wellFormed {L : Lexis} {T : List Byte} (hT : L.Piece T) : L.WellFormed T := by
  unfold Lexis.WellFormed
  rw [hT.2]; rfl

/-- Pieces, and a last text. -/
theorem parts_facts {L : Lexis} (h : L.flat = true) (X : List Byte) (hX : Plain X) (hw : L.WellFormed X) : ∀ Ts : List (List Byte),
    (∀ T ∈ Ts, L.Piece T ∧ Plain T) →
    Plain (Ts.flatten ++ X) ∧ L.WellFormed (Ts.flatten ++ X) ∧ L.kinds (Ts.flatten ++ X) = (Ts.map L.kinds).flatten ++ L.kinds X
  | [], _ => ⟨hX, hw, rfl⟩
  | T :: Ts, hT => by
    obtain ⟨h1, h2, h3⟩ := parts_facts h X hX hw Ts fun T h => hT T (.tail _ h)
    have h0 := hT T (.head _)
    rw [List.flatten_cons, List.append_assoc]
    exact ⟨plain_append h0.2 h1, (wellFormed_append h h0.1 _).2 h2, by rw [kinds_append h h0.1, h3]; simp⟩

/-- No delimiter of a language of C55 has a line end. -/
theorem classified_flat : ∀ x ∈ classified, x.2.flat = true := by decide +kernel

/-! ### The property -/

/-- The kinds of the lines that a parser reports for a text. -/
def reported (P : Parser) (l : Leftover) (T : List Byte) : List Kind := (lineReports P.line.machine l T).map (·.kind)

theorem reported_eq {P : Parser} {L : Lexis} (hP : (P, L) ∈ classified) (l : Leftover) {T : List Byte} (hp : Plain T) (hw : L.WellFormed T) :
    reported P l T = L.kinds T := (C55_kinds P L hP l T hp hw).kinds

/-- C106: the lines reported for a text that is put together from pieces are those reported for the pieces, in order, whatever was
parsed before each. -/
theorem C106_kinds (P : Parser) (L : Lexis) (hP : (P, L) ∈ classified) (l : Leftover) (before : List Byte → Leftover) (Ts : List (List Byte))
    (hT : ∀ T ∈ Ts, L.Piece T ∧ Plain T) (X : List Byte) (hX : Plain X) (hw : L.WellFormed X) :
    reported P l (Ts.flatten ++ X) = (Ts.map fun T => reported P (before T) T).flatten ++ reported P (before X) X := by
  obtain ⟨h1, h2, h3⟩ := parts_facts (classified_flat _ hP) X hX hw Ts hT
  rw [reported_eq hP l h1 h2, reported_eq hP _ hX hw, h3]
  congr 2
  exact List.map_congr_left fun T h => (reported_eq hP _ (hT T h).2 (piece_wellFormed (hT T h).1)).symm

/-- C106: the number of lines of each kind does not depend on the order of the pieces. -/
theorem C106_order (P : Parser) (L : Lexis) (hP : (P, L) ∈ classified) (l l' : Leftover) (Ts Ts' : List (List Byte)) (hp : Ts.Perm Ts')
    (hT : ∀ T ∈ Ts, L.Piece T ∧ Plain T) (k : Kind) : (reported P l Ts.flatten).count k = (reported P l' Ts'.flatten).count k := by
  have hX : Plain ([] : List Byte) := by decide
  have hw : L.WellFormed [] := rfl
  have h1 := C106_kinds P L hP l (fun _ => {}) Ts hT [] hX hw
  have h2 := C106_kinds P L hP l' (fun _ => {}) Ts' (fun T h => hT T (hp.symm.subset h)) [] hX hw
  rw [List.append_nil] at h1 h2
  rw [h1, h2]
  rw [List.count_append, List.count_append]
  congr 1
  exact (hp.map _).flatten.count_eq k

/-- The pieces must leave nothing open: after a comment that is continued by a backslash the next line is a comment. -/
theorem C106_open : ¬ LexisTable.c_line.Piece (bytes "// a \\\n") ∧ reported parse_c {} (bytes "// a \\\n" ++ bytes "x;\n") = [.lcomment, .lcomment] ∧
    reported parse_c {} (bytes "// a \\\n") ++ reported parse_c {} (bytes "x;\n") = [.lcomment, .lcode] := by
  refine ⟨by decide +kernel, by decide +kernel, by decide +kernel⟩

/-- Three pieces of a Java file, with delimiters inside of comments and strings. -/
example : (parse_java, LexisTable.java_line) ∈ classified ∧
    (∀ T ∈ [bytes "/* a\n\n \" */\n", bytes "\n", bytes "s = \"/*\"; // '\n"], LexisTable.java_line.Piece T ∧ Plain T) ∧
    reported parse_java {} ([bytes "/* a\n\n \" */\n", bytes "\n", bytes "s = \"/*\"; // '\n"].flatten ++ bytes "}") =
      [.lcomment, .lblank, .lcomment, .lblank, .lcode, .lcode] := by
  refine ⟨by simp [classified], by decide +kernel, by decide +kernel⟩

end Ohcount.Ragel

namespace Ohcount.LibraryProps
open Ohcount.Ragel Ohcount.Gram Ohcount.Cert Ohcount.LocProps

theorem linesOf_count (xs : List (Nat × Nat × Kind)) (k : Kind) : linesOf xs k = (xs.map (·.2.2)).count k := by
  unfold linesOf
  rw [List.count, List.countP_map, List.countP_eq_length_filter]
  rfl

/-- What the counts that are due for a file show. -/
theorem shown_countsOf (lang : String) (xs : List (Nat × Nat × Kind)) :
    (shown (countsOf lang xs) lang).code = (linesOf xs .lcode : Int) ∧ (shown (countsOf lang xs) lang).comments = (linesOf xs .lcomment : Int) ∧
    (shown (countsOf lang xs) lang).blanks = (linesOf xs .lblank : Int) := by
  unfold countsOf
  cases xs with
  | nil => exact ⟨rfl, rfl, rfl⟩
  | cons x xs => simp [shown, LocList.getLoc, Counts.ofLoc]

/-- The path has an extension that stands for the language. -/
def Named (lang : String) (path : Bytes) : Prop := ∃ stem e, path = stem ++ Detector.bs "." ++ e ∧ (e, Tables.ExtVal.lang lang) ∈ Tables.extensions

/-- C106 for files: the counts of a file that is put together from the texts of other files are the sums of their counts. Each of
the texts but the last consists of complete lines and leaves no comment or string open. -/
theorem C106_files (mc : Host) (before : Byte) (disk : Disk) (P : Parser) (L : Lexis) (hP : (P, L) ∈ classified)
    (hT : (bytes P.lang, P.name) ∈ Tables.parsers) (whole : Bytes) (parts : List (Bytes × Bytes)) (last : Bytes × Bytes)
    (hn : ∀ q ∈ whole :: (parts ++ [last]).map (·.1), Named P.lang q) (hd : ∀ q ∈ parts ++ [last], disk q.1 = some q.2)
    (hw : disk whole = some (((parts ++ [last]).map (·.2)).flatten)) (hq : ∀ q ∈ parts, L.Piece q.2 ∧ Plain q.2)
    (hl : Plain last.2 ∧ L.WellFormed last.2) :
    ∃ (A : LocList) (B : Bytes → LocList),
      (∃ w, step (library mc) ⟨SourceFile.new before whole, disk⟩ .getLoc = some (w, .loc A)) ∧
      (∀ q ∈ parts ++ [last], ∃ w, step (library mc) ⟨SourceFile.new before q.1, disk⟩ .getLoc = some (w, .loc (B q.1))) ∧
      (shown A P.lang).code = ((parts ++ [last]).map fun q => (shown (B q.1) P.lang).code).sum ∧
      (shown A P.lang).comments = ((parts ++ [last]).map fun q => (shown (B q.1) P.lang).comments).sum ∧
      (shown A P.lang).blanks = ((parts ++ [last]).map fun q => (shown (B q.1) P.lang).blanks).sum := by
  have hflat := classified_flat _ hP
  have htext : ((parts ++ [last]).map (·.2)).flatten = (parts.map (·.2)).flatten ++ last.2 := by simp
  obtain ⟨h1, h2, h3⟩ := parts_facts hflat last.2 hl.1 hl.2 (parts.map (·.2)) (by
    intro T h
    obtain ⟨q, h1, rfl⟩ := List.mem_map.1 h
    exact hq q h1)
  have hwell : ∀ q ∈ parts ++ [last], Plain q.2 ∧ L.WellFormed q.2 := by
    intro q h
    rcases List.mem_append.1 h with h | h
    · exact ⟨(hq q h).2, piece_wellFormed (hq q h).1⟩
    · rw [List.mem_singleton.1 h]; exact hl
  have known : ∀ (path text : Bytes), Named P.lang path → disk path = some text → Plain text → L.WellFormed text →
      Known disk path P.lang (L.lines text) := by
    rintro path text ⟨stem, e, g1, g2⟩ g3 g4 g5
    exact Known.lexis stem e P L text g1 g2 hP hT g3 g4 g5
  have hkinds : L.kinds ((parts ++ [last]).map (·.2)).flatten = ((parts ++ [last]).map fun q => L.kinds q.2).flatten := by
    rw [htext, h3]; simp [Function.comp_def]
  have hcount : ∀ k, (linesOf (L.lines ((parts ++ [last]).map (·.2)).flatten) k : Int) =
      ((parts ++ [last]).map fun q => (linesOf (L.lines q.2) k : Int)).sum := by
    intro k
    rw [linesOf_count]
    show ((L.kinds _).count k : Int) = _
    rw [hkinds, List.count_flatten, List.map_map]
    have : ∀ l : List (Bytes × Bytes), (((l.map (List.count k ∘ fun q => L.kinds q.2)).sum : Nat) : Int) =
        (l.map fun q => (linesOf (L.lines q.2) k : Int)).sum := by
      intro l
      induction l with
      | nil => rfl
      | cons q l ih =>
        rw [List.map_cons, List.sum_cons, List.map_cons, List.sum_cons, ← ih, linesOf_count]
        simp [Lexis.kinds]
    exact this _
  refine ⟨countsOf P.lang (L.lines ((parts ++ [last]).map (·.2)).flatten), fun p => countsOf P.lang (L.lines ((disk p).getD [])), ?_, ?_, ?_, ?_, ?_⟩
  · exact C59_file mc before disk whole P.lang _ (known whole _ (hn whole (.head _)) hw (by rw [htext]; exact h1) (by rw [htext]; exact h2))
  · intro q h
    have := C59_file mc before disk q.1 P.lang _
      (known q.1 q.2 (hn q.1 (.tail _ (List.mem_map.2 ⟨q, h, rfl⟩))) (hd q h) (hwell q h).1 (hwell q h).2)
    simpa only [hd q h, Option.getD_some] using this
  · rw [(shown_countsOf _ _).1, hcount]
    congr 1
    refine List.map_congr_left fun q h => ?_
    rw [(shown_countsOf _ _).1, hd q h]; rfl
  · rw [(shown_countsOf _ _).2.1, hcount]
    congr 1
    refine List.map_congr_left fun q h => ?_
    rw [(shown_countsOf _ _).2.1, hd q h]; rfl
  · rw [(shown_countsOf _ _).2.2, hcount]
    congr 1
    refine List.map_congr_left fun q h => ?_
    rw [(shown_countsOf _ _).2.2, hd q h]; rfl

/-- The hypotheses are met by two Java files and a third one with both texts. -/
example :
    let a := bytes "/* a\n\n \" */\n"
    let b := bytes "s = \"/*\"; // '\n}"
    let disk : Disk := fun p => if p = bytes "a.java" then some a else if p = bytes "b.java" then some b else if p = bytes "c.java" then some (a ++ b) else none
    (parse_java, LexisTable.java_line) ∈ classified ∧ (bytes parse_java.lang, parse_java.name) ∈ Tables.parsers ∧
    (∀ q ∈ [bytes "c.java", bytes "a.java", bytes "b.java"], Named "java" q) ∧
    disk (bytes "a.java") = some a ∧ disk (bytes "b.java") = some b ∧ disk (bytes "c.java") = some [a, b].flatten ∧
    (LexisTable.java_line.Piece a ∧ Plain a) ∧ Plain b ∧ LexisTable.java_line.WellFormed b := by
  refine ⟨by simp [classified], by decide +kernel, ?_, by decide +kernel, by decide +kernel, by decide +kernel, by decide +kernel, by decide +kernel,
    by decide +kernel⟩
  intro q hq
  simp only [List.mem_cons, List.not_mem_nil, or_false] at hq
  rcases hq with rfl | rfl | rfl
  · exact ⟨bytes "c", bytes "java", by decide +kernel, by decide +kernel⟩
  · exact ⟨bytes "a", bytes "java", by decide +kernel, by decide +kernel⟩
  · exact ⟨bytes "b", bytes "java", by decide +kernel, by decide +kernel⟩

end Ohcount.LibraryProps
