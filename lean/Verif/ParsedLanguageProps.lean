import Verif.ParsedLanguage
import Verif.LocProps
/-
Properties C08, C09, C10.

A report is *in range* for a file of `n` bytes when `0 ≤ s ≤ e ≤ n` and, for a
code or comment line, the line is not blank from `s` through `e` and beyond
(i.e. the first non-blank byte at or after `s` is not past `e`).
-/

namespace Ohcount.ParsedLanguageProps

open Ohcount

/-- Number of blanks at the start of a text (specification). -/
def leadingBlanks (t : List Byte) : Nat := (t.takeWhile fun b => b == 0x20 || b == 0x09).length

theorem leadingBlanks_eq (t : List Byte) : leadingBlanks t = (t.takeWhile isBlankByte).length := rfl

/-- Position of the first non-blank byte at or after `s`. -/
def firstNonBlank (contents : List Byte) (s : Nat) : Nat := s + leadingBlanks (contents.drop s)

/-- A report a well-behaved parser makes about `contents`. -/
def InRange (contents : List Byte) (r : Report) : Prop :=
  0 ≤ r.s ∧ r.s ≤ r.e ∧ r.e ≤ contents.length ∧
  (r.kind ≠ .lblank → (firstNonBlank contents r.s.toNat : Int) ≤ r.e)

/-- A code or comment report over a range that contains a non-blank byte is in
range. -/
theorem inRange_of_nonblank (contents : List Byte) (r : Report)
    (h0 : 0 ≤ r.s) (h1 : r.s ≤ r.e) (h2 : r.e ≤ contents.length)
    (hb : r.kind ≠ .lblank →
      ∃ (i : Nat) (b : Byte), r.s ≤ (i : Int) ∧ (i : Int) < r.e ∧ contents[i]? = some b ∧ b ≠ 0x20 ∧ b ≠ 0x09) :
    InRange contents r := by
  refine ⟨h0, h1, h2, ?_⟩
  intro hk
  obtain ⟨i, b, hi1, hi2, hib, hb1, hb2⟩ := hb hk
  have hbb : isBlankByte b = false := by simp [isBlankByte, hb1, hb2]
  simp only [firstNonBlank, leadingBlanks_eq]
  obtain ⟨s, hs⟩ : ∃ s : Nat, r.s = s := ⟨r.s.toNat, by omega⟩
  rw [hs] at hi1 ⊢
  simp only [Int.toNat_natCast]
  have key : ((contents.drop s).takeWhile isBlankByte).length ≤ i - s := by
    have hget : (contents.drop s)[i - s]? = some b := by
      rw [List.getElem?_drop]; rw [show s + (i - s) = i by omega]; exact hib
    generalize hj : i - s = j at hget
    generalize contents.drop s = l at hget
    clear hj
    induction l generalizing j with
    | nil => simp
    | cons a l ih =>
      cases j with
      | zero =>
        simp at hget; subst hget
        simp [List.takeWhile_cons, hbb]
      | succ j =>
        simp only [List.getElem?_cons_succ] at hget
        simp only [List.takeWhile_cons]
        split
        · simp; exact ih j hget
        · simp
  omega

/-! ### Helper lemmas about memory -/

theorem store_some {mem mem' : List Byte} {i : Nat} {v : Byte} (h : store mem i v = some mem') :
    mem'.length = mem.length ∧ i < mem.length ∧ mem' = mem.set i v := by
  unfold store at h
  split at h
  · cases h; exact ⟨by simp, by assumption, rfl⟩
  · cases h

theorem storeAll_eq (bs : List Byte) (mem : List Byte) (i : Nat) (h : i + bs.length ≤ mem.length) :
    storeAll mem i bs = some (mem.take i ++ bs ++ mem.drop (i + bs.length)) := by
  induction bs generalizing mem i with
  | nil => simp [storeAll]
  | cons b bs ih =>
    simp only [List.length_cons] at h
    have hi : i < mem.length := by omega
    simp only [storeAll, store, hi, if_true, Option.bind_some]
    rw [ih]
    · congr 1
      rw [List.take_set, List.drop_set]
      have h1 : i < i + 1 + bs.length := by omega
      simp only [h1, if_true]
      have h2 : mem.take (i + 1) = mem.take i ++ [mem[i]] := by
        rw [List.take_append_getElem hi]
      rw [h2, List.set_append]
      have h3 : ¬ i < (mem.take i).length := by rw [List.length_take]; omega
      rw [if_neg h3]
      simp only [List.length_take, Nat.min_eq_left (Nat.le_of_lt hi), Nat.sub_self]
      simp only [List.set_cons_zero, List.append_assoc, List.cons_append, List.nil_append,
        List.length_cons]
      rw [show i + 1 + bs.length = i + (bs.length + 1) by omega]
    · simp; omega

theorem strncpyBytes_length (src : List Byte) (n : Nat) : (strncpyBytes src n).length = n := by
  induction n generalizing src with
  | zero => simp [strncpyBytes]
  | succ n ih =>
    unfold strncpyBytes
    cases src with
    | nil => simp
    | cons b src => dsimp only; split <;> simp [ih]

theorem strncpyBytes_eq_take (src : List Byte) (n : Nat) (hn : n ≤ src.length)
    (h0 : (0 : Byte) ∉ src.take n) : strncpyBytes src n = src.take n := by
  induction n generalizing src with
  | zero => simp [strncpyBytes]
  | succ n ih =>
    cases src with
    | nil => simp at hn
    | cons b src =>
      simp only [List.take_succ_cons, List.mem_cons, not_or] at h0
      have : ¬ b = 0 := fun h => h0.1 h.symm
      simp only [strncpyBytes, this, if_false, List.take_succ_cons]
      rw [ih src (by simpa using hn) h0.2]

/-- Everything `addText` does, when the length is not negative. -/
theorem addText_ok (size : Nat) (b : TextBuf) (src : List Byte) (n : Nat)
    (hm : b.mem.length = size + 5) :
    ParsedLanguage.addText size b src n =
      if b.p + n < size + 5 then
        some { mem := (b.mem.take b.p ++ strncpyBytes src n ++ b.mem.drop (b.p + n)).set (b.p + n) 0,
               p := b.p + n, count := b.count + 1 }
      else some b := by
  unfold ParsedLanguage.addText
  have e : ((b.p : Int) + (n : Int) < (size : Int) + 5) ↔ b.p + n < size + 5 := by omega
  simp only [e]
  split
  · rename_i h
    have : ¬ ((n : Int) < 0) := by omega
    simp only [this, if_false, Int.toNat_natCast]
    rw [storeAll_eq _ _ _ (by rw [strncpyBytes_length]; omega)]
    simp only [Option.bind_some, strncpyBytes_length]
    unfold store
    have hl : b.p + n < (b.mem.take b.p ++ strncpyBytes src n ++ b.mem.drop (b.p + n)).length := by
      simp [strncpyBytes_length]; omega
    simp only [hl, if_true, Option.bind_some]
  · rfl

/-! ### Specification of a text buffer -/

/-- The text recorded so far for one kind of line: the concatenation of the recorded
pieces; `BufHolds size b text k`: the buffer is allocated with `size + 5` bytes,
its write position is inside, the bytes before it are `text`, it is NUL
terminated there, and `k` lines were counted. -/
def BufHolds (size : Nat) (b : TextBuf) (text : List Byte) (k : Nat) : Prop :=
  b.mem.length = size + 5 ∧ b.p < size + 5 ∧ b.mem.take b.p = text ∧ b.p = text.length ∧
  b.mem[b.p]? = some 0 ∧ b.count = k

theorem bufHolds_fresh (junk : Byte) (size : Nat) :
    BufHolds size (ParsedLanguage.freshBuf junk size) [] 0 := by
  simp [BufHolds, ParsedLanguage.freshBuf]

theorem bufHolds_add (size : Nat) (b : TextBuf) (text src : List Byte) (k n : Nat)
    (h : BufHolds size b text k) (hfit : text.length + n < size + 5) :
    ∃ b', ParsedLanguage.addText size b src n = some b' ∧
      BufHolds size b' (text ++ strncpyBytes src n) (k + 1) := by
  obtain ⟨h1, h2, h3, h4, h5, h6⟩ := h
  rw [addText_ok size b src n h1]
  have : b.p + n < size + 5 := by omega
  simp only [this, if_true]
  refine ⟨_, rfl, ?_⟩
  have hlen : (b.mem.take b.p ++ strncpyBytes src n ++ b.mem.drop (b.p + n)).length = size + 5 := by
    simp [strncpyBytes_length]; omega
  refine ⟨by simpa using hlen, this, ?_, ?_, ?_, by simp [h6]⟩
  · dsimp only
    rw [List.take_set_of_le (Nat.le_refl _)]
    have hl : (b.mem.take b.p ++ strncpyBytes src n).length = b.p + n := by
      simp [strncpyBytes_length]; omega
    rw [List.take_append_of_le_length (by omega), List.take_of_length_le (by omega), h3]
  · simp [strncpyBytes_length]; omega
  · dsimp only
    rw [List.getElem?_set_self (by omega)]

theorem bufHolds_keep (size : Nat) (b : TextBuf) (text src : List Byte) (k n : Nat)
    (h : BufHolds size b text k) (hfit : ¬ text.length + n < size + 5) :
    ParsedLanguage.addText size b src n = some b := by
  rw [addText_ok size b src n h.1]
  have : ¬ b.p + n < size + 5 := by rw [h.2.2.2.1]; exact hfit
  simp only [this, if_false]

/-! ### C08: no access outside the buffers -/

/-- Both buffers of an entry are properly allocated, terminated and consistent. -/
def PLOk (size : Nat) (pl : ParsedLanguage) : Prop :=
  pl.bufferSize = size ∧ (∃ t k, BufHolds size pl.code t k) ∧ (∃ t k, BufHolds size pl.comments t k)

theorem plok_new (junk : Byte) (name : String) (size : Nat) :
    PLOk size (ParsedLanguage.new junk name size) :=
  ⟨rfl, ⟨[], 0, bufHolds_fresh junk size⟩, ⟨[], 0, bufHolds_fresh junk size⟩⟩

theorem addText_total (size : Nat) (b : TextBuf) (src : List Byte) (n : Nat)
    (h : ∃ t k, BufHolds size b t k) :
    ∃ b', ParsedLanguage.addText size b src n = some b' ∧ ∃ t k, BufHolds size b' t k := by
  obtain ⟨t, k, h⟩ := h
  by_cases hf : t.length + n < size + 5
  · obtain ⟨b', e, h'⟩ := bufHolds_add size b t src k n h hf
    exact ⟨b', e, _, _, h'⟩
  · exact ⟨b, bufHolds_keep size b t src k n h hf, t, k, h⟩

theorem recordLine_total (contents : List Byte) (pl : ParsedLanguage) (r : Report)
    (hr : InRange contents r) (hp : PLOk contents.length pl) :
    ∃ pl', recordLine contents pl r = some pl' ∧ PLOk contents.length pl' ∧ pl'.name = pl.name := by
  obtain ⟨hs, hse, he, hk⟩ := hr
  obtain ⟨p1, p2, p3⟩ := hp
  unfold recordLine
  have hnot : ¬ (r.s < 0 ∨ (contents.length : Int) < r.s) := by omega
  cases hkind : r.kind with
  | lblank => exact ⟨_, rfl, ⟨p1, p2, p3⟩, rfl⟩
  | lcode =>
    have hk' := hk (by simp [hkind])
    obtain ⟨n, hn⟩ : ∃ n : Nat, r.e - (firstNonBlank contents r.s.toNat : Int) = n :=
      ⟨(r.e - (firstNonBlank contents r.s.toNat : Int)).toNat, by omega⟩
    simp only [firstNonBlank, leadingBlanks_eq] at hn
    simp only [hnot, if_false, hn]
    unfold ParsedLanguage.addCode
    rw [p1]
    obtain ⟨b', e', h'⟩ := addText_total contents.length pl.code
      (contents.drop (r.s.toNat + ((contents.drop r.s.toNat).takeWhile isBlankByte).length)) n p2
    rw [e']
    exact ⟨_, rfl, ⟨rfl, h', p3⟩, rfl⟩
  | lcomment =>
    have hk' := hk (by simp [hkind])
    obtain ⟨n, hn⟩ : ∃ n : Nat, r.e - (firstNonBlank contents r.s.toNat : Int) = n :=
      ⟨(r.e - (firstNonBlank contents r.s.toNat : Int)).toNat, by omega⟩
    simp only [firstNonBlank, leadingBlanks_eq] at hn
    simp only [hnot, if_false, hn]
    unfold ParsedLanguage.addComment
    rw [p1]
    obtain ⟨b', e', h'⟩ := addText_total contents.length pl.comments
      (contents.drop (r.s.toNat + ((contents.drop r.s.toNat).takeWhile isBlankByte).length)) n p3
    rw [e']
    exact ⟨_, rfl, ⟨rfl, p2, h'⟩, rfl⟩

theorem callback_total (junk : Byte) (contents : List Byte) (pls : List ParsedLanguage) (r : Report)
    (hr : InRange contents r) (hp : ∀ pl ∈ pls, PLOk contents.length pl) :
    ∃ pls', parserCallback junk contents pls r = some pls' ∧
      ∀ pl ∈ pls', PLOk contents.length pl := by
  induction pls with
  | nil =>
    obtain ⟨pl', e, h, _⟩ := recordLine_total contents _ r hr (plok_new junk r.lang contents.length)
    refine ⟨[pl'], by simp [parserCallback, e], ?_⟩
    intro pl hpl
    simp at hpl; subst hpl; exact h
  | cons pl rest ih =>
    unfold parserCallback
    split
    · obtain ⟨pl', e, h, _⟩ := recordLine_total contents pl r hr (hp pl (by simp))
      refine ⟨pl' :: rest, by simp [e], ?_⟩
      intro q hq
      rcases List.mem_cons.1 hq with hq | hq
      · subst hq; exact h
      · exact hp q (by simp [hq])
    · obtain ⟨rest', e, h⟩ := ih (fun q hq => hp q (by simp [hq]))
      refine ⟨pl :: rest', by simp [e], ?_⟩
      intro q hq
      rcases List.mem_cons.1 hq with hq | hq
      · subst hq; exact hp q (by simp)
      · exact h q hq

/-- C08.  For every file, every content of fresh memory and every sequence of in-range
reports — of any length, overlapping or not — recording the lines stays inside the
buffers (the outcome is not `none`), and afterwards every buffer of every language
is NUL terminated within its allocation. -/
theorem C08_memory_safe (junk : Byte) (contents : List Byte) (rs : List Report)
    (hr : ∀ r ∈ rs, InRange contents r) :
    ∃ pls, recordAll junk contents [] rs = some pls ∧
      ∀ pl ∈ pls,
        (pl.code.mem.length = contents.length + 5 ∧ pl.code.p < contents.length + 5 ∧
          pl.code.mem[pl.code.p]? = some 0) ∧
        (pl.comments.mem.length = contents.length + 5 ∧ pl.comments.p < contents.length + 5 ∧
          pl.comments.mem[pl.comments.p]? = some 0) := by
  have gen : ∀ (rs : List Report) (pls : List ParsedLanguage),
      (∀ r ∈ rs, InRange contents r) → (∀ pl ∈ pls, PLOk contents.length pl) →
      ∃ pls', recordAll junk contents pls rs = some pls' ∧ ∀ pl ∈ pls', PLOk contents.length pl := by
    intro rs
    induction rs with
    | nil => intro pls _ hp; exact ⟨pls, rfl, hp⟩
    | cons r rs ih =>
      intro pls hr hp
      obtain ⟨pls', e, h⟩ := callback_total junk contents pls r (hr r (by simp)) hp
      obtain ⟨pls'', e', h'⟩ := ih pls' (fun q hq => hr q (by simp [hq])) h
      exact ⟨pls'', by simp [recordAll, e, e'], h'⟩
  obtain ⟨pls, e, h⟩ := gen rs [] hr (by simp)
  refine ⟨pls, e, ?_⟩
  intro pl hpl
  obtain ⟨_, ⟨t, k, hc⟩, ⟨t', k', hc'⟩⟩ := h pl hpl
  exact ⟨⟨hc.1, hc.2.1, hc.2.2.2.2.1⟩, ⟨hc'.1, hc'.2.1, hc'.2.2.2.2.1⟩⟩

/-- Non-vacuity: three in-range reports for a small text. -/
example : ∀ r ∈ [(⟨"c", .lcode, 0, 3⟩ : Report), ⟨"c", .lblank, 3, 4⟩, ⟨"c", .lcomment, 4, 7⟩],
    InRange [32, 120, 10, 10, 47, 47, 10] r := by
  intro r hr
  simp only [List.mem_cons, List.not_mem_nil, or_false] at hr
  rcases hr with rfl | rfl | rfl <;> refine ⟨?_, ?_, ?_, ?_⟩ <;> decide

/-- C08, necessity of the hypothesis: a code report over blanks that are followed by
more blanks is undefined behaviour (the length becomes negative). -/
theorem C08_blank_code_line_is_ub :
    recordAll 0 [32, 32, 32] [] [⟨"c", .lcode, 0, 1⟩] = none := by decide +kernel

/-! ### C09: disjoint reports are all counted -/

/-- Two reports about disjoint parts of the file. -/
def Disjoint (a b : Report) : Prop := a.e ≤ b.s ∨ b.e ≤ a.s

/-- Position `i` belongs to the interval. -/
def inside (iv : Nat × Nat) (i : Nat) : Bool := decide (iv.1 ≤ i) && decide (i < iv.2)

theorem countP_interval (n s e : Nat) (he : e ≤ n) :
    (List.range n).countP (inside (s, e)) = e - s := by
  induction n with
  | zero => simp; omega
  | succ n ih =>
    rw [List.range_succ, List.countP_append]
    by_cases h : e ≤ n
    · rw [ih h]
      have : inside (s, e) n = false := by simp [inside]; omega
      simp [List.countP_cons, this]
    · have he' : e = n + 1 := by omega
      subst he'
      have hcl : ∀ m ≤ n, (List.range m).countP (inside (s, n + 1)) = m - s := by
        intro m
        induction m with
        | zero => simp
        | succ m ihm =>
          intro hm
          rw [List.range_succ, List.countP_append, ihm (by omega)]
          simp only [List.countP_cons, List.countP_nil, inside]
          by_cases hs : s ≤ m
          · have : m < n + 1 := by omega
            simp [hs, this]; omega
          · simp [hs]; omega
      rw [hcl n (Nat.le_refl _)]
      simp only [List.countP_cons, List.countP_nil, inside]
      by_cases hs : s ≤ n
      · simp [hs]; omega
      · simp [hs]; omega

theorem countP_or_disjoint {α : Type} (p q : α → Bool) (l : List α)
    (h : ∀ a ∈ l, ¬ (p a = true ∧ q a = true)) :
    l.countP (fun a => p a || q a) = l.countP p + l.countP q := by
  induction l with
  | nil => rfl
  | cons a l ih =>
    have ih := ih (fun b hb => h b (by simp [hb]))
    have ha := h a (by simp)
    simp only [List.countP_cons, ih]
    cases hp : p a <;> cases hq : q a <;> simp_all <;> omega

/-- Pairwise disjoint intervals inside `[0, n)` have total length at most `n`. -/
theorem sum_disjoint_le (n : Nat) (ivs : List (Nat × Nat))
    (hin : ∀ iv ∈ ivs, iv.2 ≤ n)
    (hd : ivs.Pairwise (fun a b => ∀ i, ¬ (inside a i = true ∧ inside b i = true))) :
    (ivs.map (fun iv => iv.2 - iv.1)).sum ≤ n := by
  have key : ∀ (ivs : List (Nat × Nat)), (∀ iv ∈ ivs, iv.2 ≤ n) →
      ivs.Pairwise (fun a b => ∀ i, ¬ (inside a i = true ∧ inside b i = true)) →
      (ivs.map (fun iv => iv.2 - iv.1)).sum
        = (List.range n).countP (fun i => ivs.any (fun iv => inside iv i)) := by
    intro ivs
    induction ivs with
    | nil => simp
    | cons iv ivs ih =>
      intro hin hd
      rw [List.pairwise_cons] at hd
      simp only [List.map_cons, List.sum_cons, List.any_cons]
      rw [countP_or_disjoint, ih (fun q hq => hin q (by simp [hq])) hd.2]
      · rw [countP_interval n iv.1 iv.2 (hin iv (by simp))]
      · intro i _ ⟨h1, h2⟩
        rw [List.any_eq_true] at h2
        obtain ⟨q, hq, hqi⟩ := h2
        exact hd.1 q hq i ⟨h1, hqi⟩
  rw [key ivs hin hd]
  have := List.countP_le_length (p := fun i => ivs.any (fun iv => inside iv i)) (l := List.range n)
  simpa using this

/-- Reports of one language and kind. -/
def sel (lang : String) (k : Kind) (rs : List Report) : List Report :=
  rs.filter (fun r => decide (r.lang = lang) && decide (r.kind = k))

/-- Text recorded by one code or comment report: from the first non-blank byte to the
end of the range. -/
def pieceLen (contents : List Byte) (r : Report) : Nat :=
  r.e.toNat - firstNonBlank contents r.s.toNat

/-- Total text recorded by a list of reports. -/
def usedBy (contents : List Byte) (rs : List Report) : Nat := (rs.map (pieceLen contents)).sum

theorem used_le (contents : List Byte) (rs : List Report) (hr : ∀ r ∈ rs, InRange contents r)
    (hd : rs.Pairwise Disjoint) : usedBy contents rs ≤ contents.length := by
  have h := sum_disjoint_le contents.length
    (rs.map (fun r => (firstNonBlank contents r.s.toNat, r.e.toNat))) ?_ ?_
  · simp only [List.map_map, Function.comp_def] at h
    exact h
  · intro iv hiv
    simp only [List.mem_map] at hiv
    obtain ⟨r, hrm, rfl⟩ := hiv
    have := hr r hrm
    obtain ⟨a, b, c, _⟩ := this
    dsimp only; omega
  · rw [List.pairwise_map]
    refine List.Pairwise.imp_of_mem ?_ hd
    intro a b ha hb hab i ⟨h1, h2⟩
    simp only [inside, Bool.and_eq_true, decide_eq_true_eq] at h1 h2
    obtain ⟨a1, a2, _, _⟩ := hr a ha
    obtain ⟨b1, b2, _, _⟩ := hr b hb
    unfold firstNonBlank at h1 h2
    rcases hab with h | h <;> omega

/-- The text recorded by a list of reports. -/
def textOf (contents : List Byte) (rs : List Report) : List Byte :=
  rs.flatMap fun r => strncpyBytes (contents.drop (firstNonBlank contents r.s.toNat)) (pieceLen contents r)

theorem textOf_append (contents : List Byte) (a b : List Report) : textOf contents (a ++ b) = textOf contents a ++ textOf contents b := by
  simp [textOf]

theorem textOf_length (contents : List Byte) : ∀ rs : List Report, (textOf contents rs).length = usedBy contents rs
  | [] => rfl
  | r :: rs => by
    have := textOf_length contents rs
    unfold textOf usedBy at *
    simp [strncpyBytes_length, this]

/-- What must be true of the list of parsed languages after the reports `done`, none
of which was dropped. -/
structure Tracks (contents : List Byte) (done : List Report) (pls : List ParsedLanguage) : Prop where
  nodup : (pls.map ParsedLanguage.name).Nodup
  order : pls.map ParsedLanguage.name
    = (done.map Report.lang).foldl (fun acc l => if l ∈ acc then acc else acc ++ [l]) []
  entry : ∀ pl ∈ pls, pl.bufferSize = contents.length ∧
    (∃ t, BufHolds contents.length pl.code t (sel pl.name .lcode done).length ∧
      t = textOf contents (sel pl.name .lcode done)) ∧
    (∃ t, BufHolds contents.length pl.comments t (sel pl.name .lcomment done).length ∧
      t = textOf contents (sel pl.name .lcomment done)) ∧
    pl.blanksCount = (sel pl.name .lblank done).length

theorem sel_append (lang : String) (k : Kind) (a b : List Report) :
    sel lang k (a ++ b) = sel lang k a ++ sel lang k b := by simp [sel]

theorem sel_single (lang : String) (k : Kind) (r : Report) :
    sel lang k [r] = if r.lang = lang ∧ r.kind = k then [r] else [] := by
  unfold sel
  by_cases h1 : r.lang = lang <;> by_cases h2 : r.kind = k <;> simp [h1, h2]

/-- State of one entry after the reports `done`. -/
def EntryOk (contents : List Byte) (done : List Report) (pl : ParsedLanguage) : Prop :=
  pl.bufferSize = contents.length ∧
    (∃ t, BufHolds contents.length pl.code t (sel pl.name .lcode done).length ∧
      t = textOf contents (sel pl.name .lcode done)) ∧
    (∃ t, BufHolds contents.length pl.comments t (sel pl.name .lcomment done).length ∧
      t = textOf contents (sel pl.name .lcomment done)) ∧
    pl.blanksCount = (sel pl.name .lblank done).length

theorem entry_other (contents : List Byte) (done : List Report) (r : Report) (pl : ParsedLanguage)
    (hne : pl.name ≠ r.lang) (h : EntryOk contents done pl) :
    EntryOk contents (done ++ [r]) pl := by
  unfold EntryOk
  have hne' : ¬ r.lang = pl.name := fun h => hne h.symm
  simp only [sel_append, sel_single, hne', false_and, if_false, List.append_nil]
  exact h

theorem usedBy_append (contents : List Byte) (a b : List Report) :
    usedBy contents (a ++ b) = usedBy contents a + usedBy contents b := by simp [usedBy]

theorem entry_same (contents : List Byte) (done : List Report) (r : Report) (pl : ParsedLanguage)
    (he : pl.name = r.lang) (h : EntryOk contents done pl) (hr : InRange contents r)
    (hfit : ∀ k, usedBy contents (sel r.lang k (done ++ [r])) ≤ contents.length) :
    ∃ pl', recordLine contents pl r = some pl' ∧ pl'.name = pl.name ∧
      EntryOk contents (done ++ [r]) pl' := by
  obtain ⟨h1, ⟨tc, hc, lc⟩, ⟨tm, hm, lm⟩, h4⟩ := h
  obtain ⟨r1, r2, r3, r4⟩ := hr
  have hnot : ¬ (r.s < 0 ∨ (contents.length : Int) < r.s) := by omega
  unfold recordLine
  cases hkind : r.kind with
  | lblank =>
    refine ⟨_, rfl, rfl, h1, ?_, ?_, ?_⟩
    · refine ⟨tc, ?_⟩
      simp only [sel_append, sel_single, he, hkind]
      simp only [reduceCtorEq, and_false, if_false, List.append_nil]
      rw [← he]; exact ⟨hc, lc⟩
    · refine ⟨tm, ?_⟩
      simp only [sel_append, sel_single, he, hkind]
      simp only [reduceCtorEq, and_false, if_false, List.append_nil]
      rw [← he]; exact ⟨hm, lm⟩
    · simp [sel_append, sel_single, he, hkind, h4]
  | lcode =>
    have hk' := r4 (by simp [hkind])
    have hn : r.e - (firstNonBlank contents r.s.toNat : Int) = (pieceLen contents r : Nat) := by
      unfold pieceLen; omega
    simp only [firstNonBlank, leadingBlanks_eq] at hn
    simp only [hnot, if_false, hn]
    unfold ParsedLanguage.addCode
    rw [h1]
    have hf := hfit .lcode
    rw [sel_append, sel_single] at hf
    simp only [hkind, and_self, if_true, usedBy_append] at hf
    have h1piece : usedBy contents [r] = pieceLen contents r := by simp [usedBy]
    rw [h1piece] at hf
    obtain ⟨b', e', hb'⟩ := bufHolds_add contents.length pl.code tc
      (contents.drop (r.s.toNat + ((contents.drop r.s.toNat).takeWhile isBlankByte).length))
      _ (pieceLen contents r) hc (by rw [lc, textOf_length, he]; omega)
    rw [e']
    refine ⟨_, rfl, rfl, rfl, ?_, ?_, ?_⟩
    · refine ⟨tc ++ strncpyBytes (contents.drop (r.s.toNat + ((contents.drop r.s.toNat).takeWhile isBlankByte).length)) (pieceLen contents r), ?_, ?_⟩
      · simp only [sel_append, sel_single, he, hkind, and_self, if_true, List.length_append,
          List.length_cons, List.length_nil]
        rw [he] at hb'
        exact hb'
      · simp [sel_append, sel_single, he, hkind, textOf_append, lc, textOf, firstNonBlank, leadingBlanks_eq]
    · refine ⟨tm, ?_⟩
      simp only [sel_append, sel_single, he, hkind]
      simp only [reduceCtorEq, and_false, if_false, List.append_nil]
      rw [← he]; exact ⟨hm, lm⟩
    · simp [sel_append, sel_single, hkind, h4]
  | lcomment =>
    have hk' := r4 (by simp [hkind])
    have hn : r.e - (firstNonBlank contents r.s.toNat : Int) = (pieceLen contents r : Nat) := by
      unfold pieceLen; omega
    simp only [firstNonBlank, leadingBlanks_eq] at hn
    simp only [hnot, if_false, hn]
    unfold ParsedLanguage.addComment
    rw [h1]
    have hf := hfit .lcomment
    rw [sel_append, sel_single] at hf
    simp only [hkind, and_self, if_true, usedBy_append] at hf
    have h1piece : usedBy contents [r] = pieceLen contents r := by simp [usedBy]
    rw [h1piece] at hf
    obtain ⟨b', e', hb'⟩ := bufHolds_add contents.length pl.comments tm
      (contents.drop (r.s.toNat + ((contents.drop r.s.toNat).takeWhile isBlankByte).length))
      _ (pieceLen contents r) hm (by rw [lm, textOf_length, he]; omega)
    rw [e']
    refine ⟨_, rfl, rfl, rfl, ?_, ?_, ?_⟩
    · refine ⟨tc, ?_⟩
      simp only [sel_append, sel_single, he, hkind]
      simp only [reduceCtorEq, and_false, if_false, List.append_nil]
      rw [← he]; exact ⟨hc, lc⟩
    · refine ⟨tm ++ strncpyBytes (contents.drop (r.s.toNat + ((contents.drop r.s.toNat).takeWhile isBlankByte).length)) (pieceLen contents r), ?_, ?_⟩
      · simp only [sel_append, sel_single, he, hkind, and_self, if_true, List.length_append,
          List.length_cons, List.length_nil]
        rw [he] at hb'
        exact hb'
      · simp [sel_append, sel_single, he, hkind, textOf_append, lm, textOf, firstNonBlank, leadingBlanks_eq]
    · simp [sel_append, sel_single, hkind, h4]

theorem sel_nil_of_not_mem (done : List Report) (lang : String) (k : Kind)
    (h : lang ∉ done.map Report.lang) : sel lang k done = [] := by
  unfold sel
  rw [List.filter_eq_nil_iff]
  intro a ha
  simp only [Bool.and_eq_true, decide_eq_true_eq, not_and]
  intro he
  exact absurd (List.mem_map.2 ⟨a, ha, he⟩) h

theorem entry_new (junk : Byte) (contents : List Byte) (done : List Report) (lang : String)
    (h : lang ∉ done.map Report.lang) :
    EntryOk contents done (ParsedLanguage.new junk lang contents.length) := by
  refine ⟨rfl, ⟨[], ?_, ?_⟩, ⟨[], ?_, ?_⟩, ?_⟩ <;>
    simp [ParsedLanguage.new, sel_nil_of_not_mem done lang _ h, bufHolds_fresh, textOf]

/-- First-appearance order of a list of names (specification). -/
def firstSeen (names : List String) : List String :=
  names.foldl (fun acc l => if l ∈ acc then acc else acc ++ [l]) []

theorem firstSeen_append (a : List String) (x : String) :
    firstSeen (a ++ [x]) = if x ∈ firstSeen a then firstSeen a else firstSeen a ++ [x] := by
  unfold firstSeen
  rw [List.foldl_append]
  rfl

theorem mem_firstSeen (names : List String) (x : String) : x ∈ firstSeen names ↔ x ∈ names := by
  have gen : ∀ (names acc : List String),
      x ∈ names.foldl (fun acc l => if l ∈ acc then acc else acc ++ [l]) acc ↔ x ∈ acc ∨ x ∈ names := by
    intro names
    induction names with
    | nil => simp
    | cons a names ih =>
      intro acc
      simp only [List.foldl_cons, ih, List.mem_cons]
      by_cases h : a ∈ acc
      · simp only [h, if_true]
        constructor
        · rintro (h1 | h1) <;> simp [h1]
        · rintro (h1 | h1 | h1)
          · simp [h1]
          · subst h1; exact Or.inl h
          · simp [h1]
      · simp only [h, if_false, List.mem_append, List.mem_singleton]
        constructor
        · rintro ((h1 | h1) | h1) <;> simp [h1]
        · rintro (h1 | h1 | h1) <;> simp [h1]
  simpa [firstSeen] using gen names []

theorem nodup_firstSeen (names : List String) : (firstSeen names).Nodup := by
  have gen : ∀ (names acc : List String), acc.Nodup →
      (names.foldl (fun acc l => if l ∈ acc then acc else acc ++ [l]) acc).Nodup := by
    intro names
    induction names with
    | nil => simp
    | cons a names ih =>
      intro acc hacc
      simp only [List.foldl_cons]
      apply ih
      split
      · exact hacc
      · rename_i h
        rw [List.nodup_append]
        refine ⟨hacc, by simp, ?_⟩
        intro x hx y hy
        simp at hy; subst hy
        intro hxy; subst hxy; exact h hx
  exact gen names [] (by simp)

theorem callback_tracks (junk : Byte) (contents : List Byte) (done : List Report) (r : Report)
    (hr : InRange contents r)
    (hfit : ∀ k, usedBy contents (sel r.lang k (done ++ [r])) ≤ contents.length) :
    ∀ pls : List ParsedLanguage, (pls.map ParsedLanguage.name).Nodup →
    (∀ pl ∈ pls, EntryOk contents done pl) →
    (r.lang ∉ pls.map ParsedLanguage.name → r.lang ∉ done.map Report.lang) →
    ∃ pls', parserCallback junk contents pls r = some pls' ∧
      (∀ pl ∈ pls', EntryOk contents (done ++ [r]) pl) ∧
      pls'.map ParsedLanguage.name =
        if r.lang ∈ pls.map ParsedLanguage.name then pls.map ParsedLanguage.name
        else pls.map ParsedLanguage.name ++ [r.lang] := by
  intro pls
  induction pls with
  | nil =>
    intro _ _ hnew
    have hnew := hnew (by simp)
    obtain ⟨pl', e, hn, hok⟩ := entry_same contents done r
      (ParsedLanguage.new junk r.lang contents.length) rfl (entry_new junk contents done r.lang hnew) hr hfit
    refine ⟨[pl'], by simp [parserCallback, e], ?_, ?_⟩
    · intro pl hpl; simp at hpl; subst hpl; exact hok
    · simp [hn, ParsedLanguage.new]
  | cons pl rest ih =>
    intro hnd hok hnew
    simp only [List.map_cons, List.nodup_cons] at hnd
    unfold parserCallback
    by_cases hname : pl.name = r.lang
    · simp only [hname, if_true]
      obtain ⟨pl', e, hn, hok'⟩ := entry_same contents done r pl hname (hok pl (by simp)) hr hfit
      refine ⟨pl' :: rest, by simp [e], ?_, ?_⟩
      · intro q hq
        rcases List.mem_cons.1 hq with hq | hq
        · subst hq; exact hok'
        · apply entry_other _ _ _ _ _ (hok q (by simp [hq]))
          intro hqn
          apply hnd.1
          rw [hname, ← hqn]
          exact List.mem_map.2 ⟨q, hq, rfl⟩
      · simp [hn, hname]
    · have hname' : ¬ r.lang = pl.name := fun h => hname h.symm
      simp only [hname, if_false]
      obtain ⟨rest', e, hok', hn⟩ := ih hnd.2 (fun q hq => hok q (by simp [hq])) (by
        intro h; apply hnew; simp only [List.map_cons, List.mem_cons, not_or]; exact ⟨hname', h⟩)
      refine ⟨pl :: rest', by simp [e], ?_, ?_⟩
      · intro q hq
        rcases List.mem_cons.1 hq with hq | hq
        · subst hq; exact entry_other _ _ _ _ hname (hok q (by simp))
        · exact hok' q hq
      · have hm : r.lang ∈ (pl :: rest).map ParsedLanguage.name ↔ r.lang ∈ rest.map ParsedLanguage.name := by
          rw [List.map_cons, List.mem_cons]; simp only [hname', false_or]
        by_cases hmem : r.lang ∈ rest.map ParsedLanguage.name
        · rw [if_pos (hm.2 hmem), List.map_cons, List.map_cons, hn, if_pos hmem]
        · rw [if_neg (fun h => hmem (hm.1 h)), List.map_cons, List.map_cons, hn, if_neg hmem]
          rfl

theorem recordAll_tracks (junk : Byte) (contents : List Byte) (rs : List Report) :
    ∀ (done : List Report) (pls : List ParsedLanguage),
    (∀ r ∈ rs, InRange contents r) →
    (∀ lang k, usedBy contents (sel lang k (done ++ rs)) ≤ contents.length) →
    (∀ pl ∈ pls, EntryOk contents done pl) →
    pls.map ParsedLanguage.name = firstSeen (done.map Report.lang) →
    ∃ pls', recordAll junk contents pls rs = some pls' ∧
      (∀ pl ∈ pls', EntryOk contents (done ++ rs) pl) ∧
      pls'.map ParsedLanguage.name = firstSeen ((done ++ rs).map Report.lang) := by
  induction rs with
  | nil => intro done pls _ _ h hn; exact ⟨pls, rfl, by simpa using h, by simpa using hn⟩
  | cons r rs ih =>
    intro done pls hr hfit hok hn
    have split : done ++ r :: rs = (done ++ [r]) ++ rs := by simp
    obtain ⟨pls', e, hok', hn'⟩ := callback_tracks junk contents done r (hr r (by simp)) (by
        intro k
        have := hfit r.lang k
        rw [split, sel_append, usedBy_append] at this
        omega)
      pls (by rw [hn]; exact nodup_firstSeen _) hok (by rw [hn, mem_firstSeen]; exact id)
    obtain ⟨pls'', e', hok'', hn''⟩ := ih (done ++ [r]) pls' (fun q hq => hr q (by simp [hq])) (by
        intro l k; rw [← split]; exact hfit l k) hok' (by
        rw [hn', hn, List.map_append]
        simp only [List.map_cons, List.map_nil]
        rw [firstSeen_append])
    refine ⟨pls'', by simp [recordAll, e, e'], ?_, ?_⟩
    · rw [split]; exact hok''
    · rw [split]; exact hn''

theorem sel_sublist (lang : String) (k : Kind) (rs : List Report) : (sel lang k rs).Sublist rs :=
  List.filter_sublist

/-- The text of a reported line without its leading blanks and tabs (specification). -/
def stripped (contents : List Byte) (r : Report) : List Byte :=
  ((contents.take r.e.toNat).drop r.s.toNat).dropWhile fun b => b == 0x20 || b == 0x09

/-- The string at the start of an allocation: the bytes before the first NUL. -/
def cString (mem : List Byte) : List Byte := mem.takeWhile fun b => b != 0

theorem strncpy_take : ∀ (n : Nat) (l : List Byte), (0 : Byte) ∉ l → n ≤ l.length → strncpyBytes l n = l.take n
  | 0, l, _, _ => by simp [strncpyBytes]
  | n + 1, [], _, h => by simp at h
  | n + 1, b :: l, h0, h => by
    have hb : b ≠ 0 := fun e => h0 (e ▸ List.mem_cons_self)
    simp only [strncpyBytes, if_neg hb, List.take_succ_cons]
    rw [strncpy_take n l (fun h' => h0 (List.mem_cons_of_mem _ h')) (by simpa using h)]

theorem dropWhile_eq_drop (p : Byte → Bool) : ∀ l : List Byte, l.dropWhile p = l.drop (l.takeWhile p).length
  | [] => rfl
  | a :: l => by
    simp only [List.dropWhile_cons, List.takeWhile_cons]
    split
    · simpa using dropWhile_eq_drop p l
    · rfl

theorem takeWhile_take (p : Byte → Bool) : ∀ (n : Nat) (l : List Byte), (l.takeWhile p).length ≤ n →
    ((l.take n).takeWhile p).length = (l.takeWhile p).length
  | 0, l, h => by rw [Nat.le_zero.mp h]; simp
  | n + 1, [], _ => rfl
  | n + 1, a :: l, h => by
    simp only [List.take_succ_cons, List.takeWhile_cons] at *
    split
    · rename_i ha
      rw [if_pos ha] at h
      simp only [List.length_cons] at *
      rw [takeWhile_take p n l (by omega)]
    · rfl

theorem textOf_stripped (contents : List Byte) (h0 : (0 : Byte) ∉ contents) (rs : List Report) (hr : ∀ r ∈ rs, InRange contents r)
    (hk : ∀ r ∈ rs, r.kind ≠ .lblank) : textOf contents rs = rs.flatMap (stripped contents) := by
  unfold textOf
  rw [List.flatMap_def, List.flatMap_def]
  congr 1
  apply List.map_congr_left
  intro r h
  obtain ⟨r1, r2, r3, r4⟩ := hr r h
  have r4 := r4 (hk r h)
  have e1 : r.e.toNat ≤ contents.length := by omega
  have e2 : r.s.toNat ≤ r.e.toNat := by omega
  have e3 : firstNonBlank contents r.s.toNat ≤ r.e.toNat := by omega
  rw [strncpy_take _ _ (fun h => h0 (List.mem_of_mem_drop h)) (by unfold pieceLen; simp; omega)]
  unfold stripped
  rw [dropWhile_eq_drop, List.drop_take, takeWhile_take _ _ _ (by unfold firstNonBlank leadingBlanks at e3; omega), List.drop_take,
    List.drop_drop]
  unfold pieceLen firstNonBlank leadingBlanks
  congr 1
  omega

theorem zero_not_mem_stripped {contents : List Byte} (h0 : (0 : Byte) ∉ contents) (rs : List Report) : (0 : Byte) ∉ rs.flatMap (stripped contents) := by
  intro h
  obtain ⟨r, -, h⟩ := List.mem_flatMap.mp h
  exact h0 (List.mem_of_mem_take (List.mem_of_mem_drop ((List.dropWhile_suffix _).subset h)))

theorem cString_holds {size : Nat} {b : TextBuf} {t : List Byte} {k : Nat} (h : BufHolds size b t k) (h0 : (0 : Byte) ∉ t) : cString b.mem = t := by
  obtain ⟨h1, h2, h3, h4, h5, -⟩ := h
  have e : b.mem = t ++ 0 :: b.mem.drop (b.p + 1) := by
    conv => lhs; rw [← List.take_append_drop b.p b.mem, h3]
    congr 1
    rw [List.drop_eq_getElem_cons (by omega)]
    rw [List.getElem?_eq_getElem (by omega)] at h5
    rw [Option.some.inj h5]
  unfold cString
  rw [e, List.takeWhile_append_of_pos (fun a ha => by
    have : a ≠ 0 := fun e => h0 (e ▸ ha)
    simpa using this)]
  simp

/-- C56.  For a file without NUL bytes and reports in range and pairwise disjoint: the code text of a language is its reported
code lines in order, each without its leading blanks and tabs, and the comment text is the same for the comment lines. -/
theorem C56_recorded_text (junk : Byte) (contents : List Byte) (rs : List Report)
    (h0 : (0 : Byte) ∉ contents) (hr : ∀ r ∈ rs, InRange contents r) (hd : rs.Pairwise Disjoint) :
    ∃ pls, recordAll junk contents [] rs = some pls ∧ ∀ pl ∈ pls,
      cString pl.code.mem = (rs.filter (fun r => decide (r.lang = pl.name) && decide (r.kind = .lcode))).flatMap (stripped contents) ∧
      cString pl.comments.mem = (rs.filter (fun r => decide (r.lang = pl.name) && decide (r.kind = .lcomment))).flatMap (stripped contents) := by
  obtain ⟨pls, e, hok, hn⟩ := recordAll_tracks junk contents rs [] [] hr (by
      intro lang k
      rw [List.nil_append]
      apply used_le
      · intro r hr'; exact hr r ((sel_sublist lang k rs).subset hr')
      · exact hd.sublist (sel_sublist lang k rs)) (by simp) (by simp [firstSeen])
  refine ⟨pls, e, fun pl hpl => ?_⟩
  have hpl' := hok pl hpl
  rw [List.nil_append] at hpl'
  obtain ⟨_, ⟨tc, hc, lc⟩, ⟨tm, hm, lm⟩, _⟩ := hpl'
  have hs : ∀ k, k ≠ .lblank → textOf contents (sel pl.name k rs) = (sel pl.name k rs).flatMap (stripped contents) := by
    intro k hk
    refine textOf_stripped contents h0 _ (fun r h => hr r ((sel_sublist _ _ _).subset h)) fun r h => ?_
    have := (List.mem_filter.mp h).2
    simp only [Bool.and_eq_true, decide_eq_true_eq] at this
    rw [this.2]
    exact hk
  rw [hs _ (by decide)] at lc lm
  rw [cString_holds hc (lc ▸ zero_not_mem_stripped h0 _), cString_holds hm (lm ▸ zero_not_mem_stripped h0 _), lc, lm]
  exact ⟨rfl, rfl⟩

example : (recordAll 7 [32, 9, 120, 10, 10, 32, 47, 47, 10, 121] [] [⟨"c", .lcode, 0, 4⟩, ⟨"c", .lblank, 4, 5⟩, ⟨"c", .lcomment, 5, 9⟩, ⟨"c", .lcode, 9, 10⟩]).map
      (fun pls => pls.map fun pl => (cString pl.code.mem, cString pl.comments.mem)) = some [([120, 10, 121], [47, 47, 10])] := by
  decide +kernel

/-- C09.  If the reports are in range and pairwise disjoint, then every report is
counted: for each language entry the code, comment and blank counts are the numbers
of reports of that language and kind; the entries are the reported languages in order
of first appearance. -/
theorem C09_every_line_counted (junk : Byte) (contents : List Byte) (rs : List Report)
    (hr : ∀ r ∈ rs, InRange contents r) (hd : rs.Pairwise Disjoint) :
    ∃ pls, recordAll junk contents [] rs = some pls ∧
      pls.map ParsedLanguage.name = firstSeen (rs.map Report.lang) ∧
      ∀ pl ∈ pls,
        pl.code.count = (rs.filter (fun r => decide (r.lang = pl.name) && decide (r.kind = .lcode))).length ∧
        pl.comments.count = (rs.filter (fun r => decide (r.lang = pl.name) && decide (r.kind = .lcomment))).length ∧
        pl.blanksCount = (rs.filter (fun r => decide (r.lang = pl.name) && decide (r.kind = .lblank))).length := by
  obtain ⟨pls, e, hok, hn⟩ := recordAll_tracks junk contents rs [] [] hr (by
      intro lang k
      rw [List.nil_append]
      apply used_le
      · intro r hr'; exact hr r ((sel_sublist lang k rs).subset hr')
      · exact hd.sublist (sel_sublist lang k rs)) (by simp) (by simp [firstSeen])
  refine ⟨pls, e, by simpa using hn, ?_⟩
  intro pl hpl
  have hpl' := hok pl hpl
  rw [List.nil_append] at hpl'
  obtain ⟨_, ⟨tc, hc, _⟩, ⟨tm, hm, _⟩, hb⟩ := hpl'
  exact ⟨hc.2.2.2.2.2, hm.2.2.2.2.2, hb⟩

example : [(⟨"c", .lcode, 0, 3⟩ : Report), ⟨"c", .lblank, 3, 4⟩, ⟨"c", .lcomment, 4, 7⟩].Pairwise
    Disjoint := by
  simp [List.pairwise_cons, Disjoint]

/-- C09, necessity of disjointness: six reports of the same one-byte line, five
counted. -/
theorem C09_overlapping_reports_dropped :
    (recordAll 0 [120] [] (List.replicate 6 ⟨"c", .lcode, 0, 1⟩)).map
      (fun pls => pls.map (fun pl => pl.code.count)) = some [5] := by decide +kernel

/-! ### C10: the line counts of one file -/

theorem locListOf_eq (pls : List ParsedLanguage) (hn : (pls.map ParsedLanguage.name).Nodup) :
    locListOf pls =
      pls.map (fun pl => ⟨pl.name, pl.code.count, pl.comments.count, pl.blanksCount, 1⟩) := by
  have gen : ∀ (pls : List ParsedLanguage) (acc : LocList),
      (acc.map Loc.language ++ pls.map ParsedLanguage.name).Nodup →
      pls.foldl (fun l pl => l.addLoc
        ⟨pl.name, pl.code.count, pl.comments.count, pl.blanksCount, 1⟩) acc
      = acc ++ pls.map (fun pl => ⟨pl.name, pl.code.count, pl.comments.count, pl.blanksCount, 1⟩) := by
    intro pls
    induction pls with
    | nil => simp
    | cons pl pls ih =>
      intro acc hn
      simp only [List.foldl_cons]
      have hadd : ∀ (acc : LocList) (x : Loc), x.language ∉ acc.map Loc.language →
          acc.addLoc x = acc ++ [x] := by
        intro acc x
        induction acc with
        | nil => intro _; rfl
        | cons a acc ih2 =>
          intro h
          simp only [List.map_cons, List.mem_cons, not_or] at h
          unfold LocList.addLoc
          have : ¬ a.language = x.language := fun h' => h.1 h'.symm
          simp only [this, if_false, List.cons_append]
          rw [ih2 h.2]
      rw [hadd]
      · rw [ih]
        · simp
        · simpa using hn
      · simp only [List.map_cons, List.nodup_append] at hn
        intro hm
        exact hn.2.2 _ hm _ (by simp) rfl
  simpa [locListOf] using gen pls [] (by simpa using hn)

/-- Number of reports of one language and kind. -/
def countOf (rs : List Report) (lang : String) (k : Kind) : Nat :=
  (rs.filter (fun r => decide (r.lang = lang) && decide (r.kind = k))).length

theorem filter_split (rs : List Report) (lang : String) :
    countOf rs lang .lcode + countOf rs lang .lcomment + countOf rs lang .lblank
      = (rs.filter (fun r => decide (r.lang = lang))).length := by
  unfold countOf
  induction rs with
  | nil => rfl
  | cons r rs ih =>
    simp only [List.filter_cons]
    by_cases h : r.lang = lang
    · cases hk : r.kind <;> simp [h] <;> omega
    · simp [h]; exact ih

theorem filter_filter_lang (rs : List Report) (l l' : String) (h : l ≠ l') :
    (rs.filter (fun r => !decide (r.lang = l))).filter (fun r => decide (r.lang = l'))
      = rs.filter (fun r => decide (r.lang = l')) := by
  rw [List.filter_filter]
  apply List.filter_congr
  intro r _
  by_cases h1 : r.lang = l
  · have h2 : ¬ r.lang = l' := fun h2 => h (h1.symm.trans h2)
    rw [decide_eq_false h2]; rfl
  · rw [decide_eq_false h1]; simp

theorem sum_by_lang (names : List String) (rs : List Report) (hn : names.Nodup)
    (hall : ∀ r ∈ rs, r.lang ∈ names) :
    (names.map (fun l => (rs.filter (fun r => decide (r.lang = l))).length)).sum = rs.length := by
  induction names generalizing rs with
  | nil =>
    cases rs with
    | nil => rfl
    | cons r rs => exact absurd (hall r (by simp)) (by simp)
  | cons l names ih =>
    rw [List.nodup_cons] at hn
    have ih := ih (rs.filter (fun r => !decide (r.lang = l))) hn.2 (by
      intro r hr
      rw [List.mem_filter] at hr
      have := hall r hr.1
      rcases List.mem_cons.1 this with h | h
      · simp [h] at hr
      · exact h)
    have hmap : names.map (fun l' => ((rs.filter (fun r => !decide (r.lang = l))).filter
          (fun r => decide (r.lang = l'))).length)
        = names.map (fun l' => (rs.filter (fun r => decide (r.lang = l'))).length) := by
      apply List.map_congr_left
      intro l' hl'
      rw [filter_filter_lang]
      intro h; subst h; exact hn.1 hl'
    rw [hmap] at ih
    simp only [List.map_cons, List.sum_cons, ih]
    have : (rs.filter (fun r => decide (r.lang = l))).length
        + (rs.filter (fun r => !decide (r.lang = l))).length = rs.length := by
      clear ih hmap hall
      induction rs with
      | nil => rfl
      | cons r rs ih =>
        by_cases h : r.lang = l <;> simp [h] <;> omega
    omega

/-- C10.  The line counts of a file, for in-range disjoint reports: one entry per
reported language in order of first appearance, with filecount 1 and the numbers of
reports of each kind; the total is the number of reports. -/
theorem C10_loc_list (junk : Byte) (contents : List Byte) (rs : List Report)
    (hr : ∀ r ∈ rs, InRange contents r) (hd : rs.Pairwise Disjoint) :
    ∃ pls, recordAll junk contents [] rs = some pls ∧
      locListOf pls = (firstSeen (rs.map Report.lang)).map (fun lang =>
        ⟨lang, countOf rs lang .lcode, countOf rs lang .lcomment, countOf rs lang .lblank, 1⟩) ∧
      (locListOf pls).total = rs.length := by
  obtain ⟨pls, e, hn, hc⟩ := C09_every_line_counted junk contents rs hr hd
  have hnd : (pls.map ParsedLanguage.name).Nodup := by rw [hn]; exact nodup_firstSeen _
  have hloc : locListOf pls = (firstSeen (rs.map Report.lang)).map (fun lang =>
        ⟨lang, countOf rs lang .lcode, countOf rs lang .lcomment, countOf rs lang .lblank, 1⟩) := by
    rw [locListOf_eq pls hnd, ← hn, List.map_map]
    apply List.map_congr_left
    intro pl hpl
    obtain ⟨h1, h2, h3⟩ := hc pl hpl
    simp [countOf, h1, h2, h3]
  refine ⟨pls, e, hloc, ?_⟩
  rw [hloc]
  simp only [LocList.total, LocProps.sumLoop_eq, LocProps.sumAll, List.map_map]
  have key : ((firstSeen (rs.map Report.lang)).map (fun l =>
      (rs.filter (fun r => decide (r.lang = l))).length)).sum = rs.length := by
    apply sum_by_lang _ _ (nodup_firstSeen _)
    intro r hr'
    rw [mem_firstSeen]
    exact List.mem_map.2 ⟨r, hr', rfl⟩
  rw [← key]
  generalize firstSeen (rs.map Report.lang) = names
  induction names with
  | nil => rfl
  | cons l names ih =>
    simp only [List.map_cons, List.sum_cons, ih, Function.comp, Loc.total]
    have := filter_split rs l
    omega

end Ohcount.ParsedLanguageProps
