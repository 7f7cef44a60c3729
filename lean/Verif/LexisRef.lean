import Verif.LexisStream

/-!
The state of the reading of a text at a position, and how it determines the kinds of lines.
-/

namespace Ohcount.Ragel

/-- The state of the reading after the bytes before some position: the bytes `pend` before the position have no label
yet, `k` is the kind of the labels of the current line, `nl`: a line ends at the position (`k` is that line's), `mons`: constructs
that are not closed in the rest of the line (including `pend`); `top`: nothing is known but `nl` and `mons`. -/
structure RS where
  mode : Mode
  pend : List Nat
  k : Kind
  nl : Bool
  mons : List Lexis.Mon
  top : Bool
  deriving DecidableEq, Repr

namespace RS

/-- The next byte; `nl`: a line ends after it.  One of the results is the right one. -/
def feed (L : Lexis) (s : RS) (b : Nat) (nl : Bool) : List RS :=
  if s.top then (match L.monsByte b s.mons with | none => [] | some ms => [⟨.code, [], .lblank, nl, ms, true⟩])
  else (L.drain (s.pend.length + 1) s.mode (s.pend ++ [b]) (if s.nl then .lblank else s.k) s.mons).map fun P =>
    ⟨P.mode, P.pend, P.k, nl, P.mons, false⟩

/-- Forget all but the constructs that are not closed. -/
def widen (L : Lexis) (s : RS) : Option RS :=
  if s.top then some s else (L.monsRun s.pend s.mons).map fun ms => ⟨.code, [], .lblank, s.nl, ms, true⟩

/-- The kind of the last line, if the text ends here. -/
def lastKind (L : Lexis) (s : RS) : Kind := if s.nl then .lblank else (L.scan s.mode 0 .lblank s.pend).1.foldl join s.k

/-- The end of the reading, if the text ends here. -/
def lastMode (L : Lexis) (s : RS) : Mode := (L.scan s.mode 0 .lblank s.pend).2

def init : RS := ⟨.code, [], .lblank, false, [], false⟩

end RS

/-- The start of the line that ends at `p` or that `p` is in. -/
def lineOf (buf : List Byte) : Nat → Nat
  | 0 => 0
  | p + 1 => if lineEnd buf p then p else lineOf buf p

theorem lineOf_le (buf : List Byte) : ∀ p, lineOf buf p ≤ p
  | 0 => Nat.le_refl _
  | p + 1 => by
    unfold lineOf
    split
    · omega
    · have := lineOf_le buf p; omega

namespace Lexis
variable (L : Lexis)

/-- The buffer with the bytes that are not told apart replaced. -/
def norm (buf : List Byte) : List Nat := buf.map fun b => L.repr b.toNat

theorem norm_length (buf : List Byte) : (L.norm buf).length = buf.length := by simp [norm]

theorem all_eq (hok : L.ok = true) (buf : List Byte) : L.all buf = L.scan .code 0 .lblank (L.norm buf) := by
  unfold all norm
  rw [← L.scan_repr hok, List.map_map]
  rfl

/-- `s` is the state of the reading at `p`. -/
structure RefAt (buf : List Byte) (p : Nat) (s : RS) : Prop where
  le : p ≤ buf.length
  ex : s.top = false → ∃ lbs : List Kind, L.all buf = (lbs ++ (L.scan s.mode 0 .lblank (s.pend ++ (L.norm buf).drop p)).1,
      (L.scan s.mode 0 .lblank (s.pend ++ (L.norm buf).drop p)).2) ∧
    lbs.length + s.pend.length = p ∧ lineOf buf p ≤ lbs.length ∧ (lbs.drop (lineOf buf p)).foldl join .lblank = s.k
  nl : s.nl = lineEnd buf p
  pend : s.nl = true → s.pend = []
  mons : ∀ x ∈ s.mons, L.holds x (s.pend ++ (L.norm buf).drop p)
  top : s.top = true → s.pend = []

theorem refAt_init (hok : L.ok = true) (buf : List Byte) : L.RefAt buf 0 RS.init := by
  refine ⟨Nat.zero_le _, fun _ => ⟨[], ?_, rfl, Nat.le_refl _, rfl⟩, rfl, by simp [RS.init], by simp [RS.init], by simp [RS.init]⟩
  rw [L.all_eq hok]
  simp [RS.init]

theorem refAt_widen {buf : List Byte} {p : Nat} {s : RS} (h : L.RefAt buf p s) : ∃ s', s.widen L = some s' ∧ L.RefAt buf p s' := by
  unfold RS.widen
  split
  · exact ⟨s, rfl, h⟩
  · obtain ⟨ms, h1, h2⟩ := L.monsRun_spec h.mons
    rw [h1]
    exact ⟨_, rfl, h.le, by simp, h.nl, by simp, h2, by simp⟩

theorem norm_drop {buf : List Byte} {p : Nat} {b : Byte} (hb : buf[p]? = some b) :
    (L.norm buf).drop p = L.repr b.toNat :: (L.norm buf).drop (p + 1) := by
  have hlt : p < buf.length := (List.getElem?_eq_some_iff.mp hb).1
  have hlt' : p < (L.norm buf).length := by rw [L.norm_length]; exact hlt
  rw [List.drop_eq_getElem_cons hlt']
  congr 1
  simp only [norm, List.getElem_map]
  congr 2
  exact (List.getElem?_eq_some_iff.mp hb).2

theorem refAt_feed (hok : L.ok = true) {buf : List Byte} {p : Nat} {s : RS} (h : L.RefAt buf p s) {b : Byte} (hb : buf[p]? = some b)
    {nl : Bool} (hnl : nl = lineEnd buf (p + 1)) : ∃ r ∈ s.feed L (L.repr b.toNat) nl,
      (r.mode = .bad → ¬ L.WellFormed buf) ∧ ((nl = true → r.pend = []) → L.RefAt buf (p + 1) r) := by
  have hlt : p < buf.length := (List.getElem?_eq_some_iff.mp hb).1
  have hd := L.norm_drop hb
  have hm := h.mons
  rw [hd] at hm
  unfold RS.feed
  cases ht : s.top with
  | true =>
    rw [h.top ht] at hm
    obtain ⟨ms, m1, m2⟩ := L.monsByte_spec hm
    simp only [if_true, m1]
    exact ⟨_, List.mem_singleton.mpr rfl, by simp, fun _ => ⟨hlt, by simp, hnl, by simp, m2, by simp⟩⟩
  | false =>
  simp only [Bool.false_eq_true, if_false]
  obtain ⟨lbs, h1, h2, h3, h4⟩ := h.ex ht
  obtain ⟨P, hP, l2, g1, g2, g3, g4⟩ := L.drain_spec hok .lblank ((L.norm buf).drop (p + 1)) (s.pend.length + 1) s.mode (s.pend ++ [L.repr b.toNat])
    (if s.nl then .lblank else s.k) s.mons (by rw [List.append_assoc, List.singleton_append]; exact hm)
  rw [List.append_assoc, List.singleton_append, ← hd] at g1
  refine ⟨_, List.mem_map.mpr ⟨P, hP, rfl⟩, ?_, fun hp => ⟨hlt, fun _ => ⟨lbs ++ l2, ?_, ?_, ?_, ?_⟩, hnl, hp, g4, by simp⟩⟩
  · intro hbad hw
    dsimp only at hbad
    rw [g1, hbad, L.scan_bad] at h1
    have h2 : (L.all buf).2 = .bad := by rw [h1]
    unfold Lexis.WellFormed at hw
    rw [h2] at hw
    cases hw
  · rw [h1, g1]
    simp
  · simp only [List.length_append, List.length_singleton] at g2 ⊢
    omega
  · unfold lineOf
    split
    · rename_i hle
      rw [h.pend (by rw [h.nl, hle])] at h2
      simp at h2 ⊢; omega
    · simp; omega
  · unfold lineOf
    split
    · rename_i hle
      have hn : s.nl = true := by rw [h.nl, hle]
      rw [h.pend hn] at h2
      simp only [List.length_nil, Nat.add_zero] at h2
      rw [← h2, List.drop_left]
      simp only [hn, if_true] at g3
      exact g3
    · rename_i hle
      have hn : s.nl = false := by rw [h.nl]; simpa using hle
      rw [List.drop_append_of_le_length h3, List.foldl_append, h4]
      simp only [hn, Bool.false_eq_true, if_false] at g3
      exact g3

/-- The kind of the labels `l`. -/
theorem kind_foldl (l : List Kind) : (if l.contains .lcode then Kind.lcode else if l.contains .lcomment then .lcomment else .lblank)
    = l.foldl join .lblank := by
  have key : ∀ (l : List Kind) (k : Kind), l.foldl join k = if k = .lcode ∨ l.contains .lcode then Kind.lcode
      else if k = .lcomment ∨ l.contains .lcomment then .lcomment else .lblank := by
    intro l
    induction l with
    | nil => intro k; cases k <;> simp
    | cons a l ih =>
      intro k
      rw [List.foldl_cons, ih]
      cases k <;> cases a <;> simp [join]
  rw [key]
  simp

/-- The kind of the line that ends at `p`. -/
theorem RefAt.kind {L : Lexis} {buf : List Byte} {p : Nat} {s : RS} (h : L.RefAt buf p s) (ht : s.top = false) (hp : s.pend = []) :
    L.lineKind buf (lineOf buf p) p = s.k := by
  obtain ⟨lbs, h1, h2, h3, h4⟩ := h.ex ht
  unfold lineKind
  have : L.labels buf = (L.all buf).1 := rfl
  rw [this, h1]
  dsimp only
  rw [kind_foldl, ← h4]
  rw [hp] at h2
  simp only [List.length_nil, Nat.add_zero] at h2
  rw [List.drop_append_of_le_length h3, List.take_append_of_le_length (by simp; omega), List.take_of_length_le (by simp; omega)]

/-- The kind of the text after the last line end. -/
theorem RefAt.last {L : Lexis} {buf : List Byte} {s : RS} (h : L.RefAt buf buf.length s) (ht : s.top = false) :
    (s.nl = false → L.lineKind buf (lineOf buf buf.length) buf.length = s.lastKind L) ∧ (L.all buf).2 = s.lastMode L := by
  obtain ⟨lbs, h1, h2, h3, h4⟩ := h.ex ht
  have hd : (L.norm buf).drop buf.length = [] := by rw [← L.norm_length, List.drop_length]
  rw [hd, List.append_nil] at h1
  constructor
  · intro hn
    unfold lineKind
    have : L.labels buf = (L.all buf).1 := rfl
    rw [this, h1]
    dsimp only
    rw [kind_foldl]
    unfold RS.lastKind
    rw [hn]
    simp only [Bool.false_eq_true, if_false]
    rw [← h4, ← List.foldl_append, List.drop_append_of_le_length h3, List.take_of_length_le]
    have hl : ∀ (l : List Nat) (m : Mode) (k : Nat) (a : Kind), (L.scan m k a l).1.length = l.length := by
      intro l
      induction l with
      | nil => intro m k a; rfl
      | cons b l ih => intro m k a; cases k <;> simp [scan, ih]
    simp only [List.length_append, List.length_drop, hl]
    omega
  · rw [h1]; rfl

end Lexis
end Ohcount.Ragel
