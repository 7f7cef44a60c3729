import Verif.DiffOut
import Verif.LocProps
import Verif.ParsedLanguageProps
/-
Properties C17-C23: the line diff (`src/diff.c`) and the deltas of two files
(`ohcount_sourcefile_diff`).
-/

namespace Ohcount.DiffProps
open Ohcount.Diff

/-! ### Specification

A text is the part of the buffer before the first NUL.  Its lines are what remains
when it is cut at every newline; the diff looks at the non-empty ones. -/

/-- Cut a text at every newline. -/
def splitLines : Bytes → List Bytes
  | [] => [[]]
  | b :: bs =>
    if b = 10 then [] :: splitLines bs
    else
      match splitLines bs with
      | [] => [[b]]
      | l :: ls => (b :: l) :: ls

theorem splitLines_ne_nil (t : Bytes) : splitLines t ≠ [] := by
  cases t with
  | nil => simp [splitLines]
  | cons b bs =>
    simp only [splitLines]
    split
    · simp
    · split <;> simp

/-- `splitLines` is cutting at newlines: the pieces contain no newline and joining them
with newlines gives the text back. -/
theorem splitLines_spec (t : Bytes) :
    (∀ l ∈ splitLines t, (10 : Byte) ∉ l) ∧ [(10 : Byte)].intercalate (splitLines t) = t := by
  have hne := splitLines_ne_nil
  induction t with
  | nil => simp [splitLines]
  | cons b bs ih =>
    obtain ⟨h1, h2⟩ := ih
    simp only [splitLines]
    split
    · rename_i hb
      refine ⟨?_, ?_⟩
      · intro l hl
        rcases List.mem_cons.1 hl with rfl | hl
        · simp
        · exact h1 l hl
      · cases hs : splitLines bs with
        | nil => exact absurd hs (hne bs)
        | cons l ls =>
          rw [hs] at h2
          rw [List.intercalate_cons_cons, h2]; simp [hb]
    · rename_i hb
      cases hs : splitLines bs with
      | nil => exact absurd hs (hne bs)
      | cons l ls =>
        rw [hs] at h1 h2
        refine ⟨?_, ?_⟩
        · intro x hx
          rcases List.mem_cons.1 hx with rfl | hx
          · have := h1 l (by simp)
            simp only [List.mem_cons, not_or]
            exact ⟨fun h => hb h.symm, this⟩
          · exact h1 x (by simp [hx])
        · cases ls with
          | nil => rw [List.intercalate_singleton] at h2 ⊢; rw [h2]
          | cons l' ls =>
            rw [List.intercalate_cons_cons] at h2 ⊢
            rw [← h2]; simp

/-- The text in a NUL-terminated buffer. -/
def text (buf : Bytes) : Bytes := buf.takeWhile (fun b => b != 0)

/-- The non-empty lines of the text in a buffer. -/
def nonEmptyLines (buf : Bytes) : List Bytes := (splitLines (text buf)).filter (fun l => !l.isEmpty)

/-- No line of the text has the hash value 0. -/
def NoZeroHash (buf : Bytes) : Prop := ∀ l ∈ nonEmptyLines buf, lineHash l ≠ 0

theorem strtokAux_eq (cur : Bytes) (t : Bytes) :
    strtokAux cur t =
      (match splitLines t with
        | [] => []
        | l :: ls => (cur.reverse ++ l) :: ls).filter (fun l => !l.isEmpty) := by
  induction t generalizing cur with
  | nil =>
    simp only [strtokAux, splitLines]
    cases cur with
    | nil => rfl
    | cons a cur => simp
  | cons b bs ih =>
    simp only [strtokAux, splitLines]
    split
    · have h0 := ih []
      have hs : (match splitLines bs with
          | [] => []
          | l :: ls => (([] : Bytes).reverse ++ l) :: ls) = splitLines bs := by
        cases splitLines bs <;> simp
      rw [hs] at h0
      cases cur with
      | nil => simp [h0]
      | cons a cur => simp [h0]
    · rw [ih (b :: cur)]
      cases hs : splitLines bs with
      | nil => exact absurd hs (splitLines_ne_nil bs)
      | cons l ls => simp

theorem tokens_eq (buf : Bytes) : tokens buf = nonEmptyLines buf := by
  rw [tokens, strtokAux_eq, nonEmptyLines, cstr, text]
  cases splitLines (List.takeWhile (fun b => b != 0) buf) <;> simp

theorem prepare_eq (buf : Bytes) : prepare buf = (nonEmptyLines buf).map lineHash := by
  rw [prepare, tokens_eq]

theorem zero_notin (buf : Bytes) (h : NoZeroHash buf) : (0 : Int) ∉ prepare buf := by
  rw [prepare_eq, List.mem_map]
  rintro ⟨l, hl, h0⟩
  exact h l hl h0

/-! ### C19: minimality -/

/-- C19 as stated: for all texts, whatever the content of fresh memory. -/
def C19_full : Prop := ∀ (junk : Junk) (old new : Bytes),
  ∃ k, IsLCS ((nonEmptyLines old).map lineHash) ((nonEmptyLines new).map lineHash) k ∧
    calcDiff junk old new =
      some (((nonEmptyLines new).length : Int) - k, ((nonEmptyLines old).length : Int) - k)

/-- C19, proved part: the numbers of lines added and removed are the numbers of lines outside
of a longest common subsequence (lines identified by their hash), for all texts
of any length such that no line of the new text has hash value 0.
Missing: new texts with a line of hash value 0 (see `C19_negation`). -/
theorem C19_minimal_partial (junk : Junk) (old new : Bytes) (h : NoZeroHash new) :
    ∃ k, IsLCS ((nonEmptyLines old).map lineHash) ((nonEmptyLines new).map lineHash) k ∧
      calcDiff junk old new =
        some (((nonEmptyLines new).length : Int) - k, ((nonEmptyLines old).length : Int) - k) := by
  obtain ⟨k, hk, e⟩ := diffValues_lcs junk (prepare old) (prepare new) (zero_notin new h)
  rw [prepare_eq, prepare_eq] at hk
  refine ⟨k, hk, ?_⟩
  rw [calcDiff, e, prepare_eq, prepare_eq, List.length_map, List.length_map]

/-- Fresh memory that happens to be all zero. -/
def zeroJunk : Junk := ⟨fun _ => ⟨0, 0⟩, 0, 0⟩

/-- C19 and C17 fail: with "a" and the one-byte text `\xFF` (whose hash is 0) the code
reads outside of its array when the fresh memory is zero. -/
theorem C19_negation : ¬ C19_full := by
  intro h
  obtain ⟨k, _, e⟩ := h zeroJunk [97] [255]
  have : calcDiff zeroJunk [97] [255] = none := by decide +kernel
  rw [this] at e
  cases e

example : NoZeroHash [97, 10, 98, 10, 10, 99] ∧ nonEmptyLines [97, 10, 98, 10, 10, 99] = [[97], [98], [99]] := by
  unfold NoZeroHash; decide +kernel

/-! ### C17: net change -/

def C17_full : Prop := ∀ (junk : Junk) (old new : Bytes),
  ∃ a r, calcDiff junk old new = some (a, r) ∧
    a - r = ((nonEmptyLines new).length : Int) - (nonEmptyLines old).length

theorem C17_negation : ¬ C17_full := by
  intro h
  obtain ⟨a, r, e, _⟩ := h zeroJunk [97] [255]
  have : calcDiff zeroJunk [97] [255] = none := by decide +kernel
  rw [this] at e
  cases e

/-- C17, proved part: added minus removed is the difference of the numbers of non-empty
lines.  Missing: new texts with a line of hash value 0. -/
theorem C17_net_change_partial (junk : Junk) (old new : Bytes) (h : NoZeroHash new) :
    ∃ a r, calcDiff junk old new = some (a, r) ∧
      a - r = ((nonEmptyLines new).length : Int) - (nonEmptyLines old).length := by
  obtain ⟨k, _, e⟩ := C19_minimal_partial junk old new h
  exact ⟨_, _, e, by omega⟩

/-! ### C18: a text compared with itself -/

/-- C18.  Comparing a text with itself reports nothing added and nothing removed, for
every text (also with lines of hash value 0). -/
theorem C18_no_change (junk : Junk) (t : Bytes) : calcDiff junk t t = some (0, 0) :=
  diffValues_self junk (prepare t)

/-- C18 extended: only the non-empty lines matter; adding or removing empty lines, or the
newline at the end, is not seen. -/
theorem C18_empty_lines_ignored (junk : Junk) (old new : Bytes)
    (h : nonEmptyLines old = nonEmptyLines new) : calcDiff junk old new = some (0, 0) := by
  rw [calcDiff, prepare_eq, prepare_eq, h]; exact diffValues_self junk _

example : nonEmptyLines [97, 10, 10, 98] = nonEmptyLines [10, 97, 10, 98, 10] := by decide

/-- An empty diff means equal sequences of line hashes. -/
theorem C18_converse_partial (junk : Junk) (old new : Bytes) (h : NoZeroHash new)
    (e : calcDiff junk old new = some (0, 0)) :
    (nonEmptyLines old).map lineHash = (nonEmptyLines new).map lineHash := by
  obtain ⟨k, ⟨⟨s, h1, h2, h3⟩, _⟩, e'⟩ := C19_minimal_partial junk old new h
  rw [e] at e'
  simp only [Option.some.injEq, Prod.mk.injEq] at e'
  have l1 : ((nonEmptyLines old).map lineHash).length ≤ s.length := by rw [List.length_map]; omega
  have l2 : ((nonEmptyLines new).map lineHash).length ≤ s.length := by rw [List.length_map]; omega
  rw [← h1.eq_of_length_le l1, ← h2.eq_of_length_le l2]

/-! ### C20: reversal -/

def C20_full : Prop := ∀ (junk : Junk) (old new : Bytes),
  calcDiff junk new old = (calcDiff junk old new).map fun (a, r) => (r, a)

/-- C20 fails for texts with a line of hash value 0. -/
theorem C20_negation : ¬ C20_full := by
  intro h
  have := h zeroJunk [97] [255]
  have h1 : calcDiff zeroJunk [97] [255] = none := by decide +kernel
  have h2 : calcDiff zeroJunk [255] [97] = some (1, 1) := by decide +kernel
  rw [h1, h2] at this
  cases this

/-- C20, proved part.  Missing: texts with a line of hash value 0. -/
theorem C20_reversal_partial (junk junk' : Junk) (old new : Bytes) (h : NoZeroHash old)
    (h' : NoZeroHash new) :
    ∃ a r, calcDiff junk old new = some (a, r) ∧ calcDiff junk' new old = some (r, a) := by
  obtain ⟨k, hk, e⟩ := C19_minimal_partial junk old new h'
  obtain ⟨k', hk', e'⟩ := C19_minimal_partial junk' new old h
  have : k = k' := hk.unique hk'.symm
  subst this
  exact ⟨_, _, e, e'⟩

/-! ### C21: bounds and termination -/

/-- C21, proved part.  The diff terminates with all accesses to its line, class, candidate and
match arrays in bounds and the counts within the numbers of lines, provided that no
line of the new text has hash value 0.  Not covered: the copy of the text
(`C21_copy_out_of_bounds`). -/
theorem C21_bounds_partial (junk : Junk) (old new : Bytes) (h : NoZeroHash new) :
    ∃ a r, calcDiff junk old new = some (a, r) ∧
      0 ≤ a ∧ a ≤ (nonEmptyLines new).length ∧ 0 ≤ r ∧ r ≤ (nonEmptyLines old).length := by
  obtain ⟨k, ⟨⟨s, h1, h2, rfl⟩, _⟩, e⟩ := C19_minimal_partial junk old new h
  have l1 := h1.length_le
  have l2 := h2.length_le
  rw [List.length_map] at l1 l2
  exact ⟨_, _, e, by omega, by omega, by omega, by omega⟩

/-- C21, defect: a read outside of the array for a line of hash value 0. -/
theorem C21_zero_hash_out_of_bounds : calcDiff zeroJunk [97] [255] = none := by decide +kernel

/-- C21, defect: the copy made for tokenising is stored to one past its end, for every
text. -/
theorem C21_copy_out_of_bounds (junk : Byte) (buf : Bytes) : copyText junk buf = none := by
  rw [copyText, ParsedLanguageProps.storeAll_eq _ _ _ (by
    rw [ParsedLanguageProps.strncpyBytes_length]; simp)]
  rw [Option.bind_some, store]
  simp [ParsedLanguageProps.strncpyBytes_length]

/-! When can a line hash to 0? -/

theorem hashLoop_ascii (l : Bytes) (hl : ∀ b ∈ l, b.toNat < 128) : ∀ (sum : Int) (shift : Nat),
    sum ≤ hashLoop sum shift l ∧ hashLoop sum shift l ≤ sum + l.length * 4161536 := by
  induction l with
  | nil => intro sum shift; simp [hashLoop]
  | cons b bs ih =>
    intro sum shift
    have hb := hl b (by simp)
    obtain ⟨h1, h2⟩ := ih (fun x hx => hl x (by simp [hx])) (sum + schar b * 2 ^ (shift % 16)) (shift % 16 + 7)
    have hs : schar b = (b.toNat : Int) := by simp [schar, hb]
    have hpow : (2 : Nat) ^ (shift % 16) ≤ 2 ^ 15 := Nat.pow_le_pow_right (by omega) (by omega)
    have hterm : b.toNat * 2 ^ (shift % 16) ≤ 127 * 2 ^ 15 := Nat.mul_le_mul (by omega) hpow
    have hcast : schar b * 2 ^ (shift % 16) = ((b.toNat * 2 ^ (shift % 16) : Nat) : Int) := by
      rw [hs]; simp
    simp only [hashLoop]
    rw [hcast] at h1 h2 ⊢
    rw [List.length_cons]
    omega

/-- Lines of plain ASCII characters of up to 1000 bytes never have hash value 0: for
such texts C17 and C19-C21 hold without restriction. -/
theorem C21_ascii_hash_nonzero (l : Bytes) (hl : ∀ b ∈ l, b.toNat < 128) (hn : l.length ≤ 1000) :
    lineHash l ≠ 0 := by
  obtain ⟨h1, h2⟩ := hashLoop_ascii l hl 1 0
  unfold lineHash
  generalize hashLoop 1 0 l = s at *
  dsimp only
  unfold low high toShort
  have ht : 1 ≤ s % 65536 + s / 65536 ∧ s % 65536 + s / 65536 ≤ 131070 := by omega
  generalize s % 65536 + s / 65536 = t at ht
  have hq : t / 65536 = 0 ∨ t / 65536 = 1 := by omega
  rcases hq with hq | hq <;> rw [hq] <;> omega

theorem mem_nonEmptyLines {buf l : Bytes} (h : l ∈ nonEmptyLines buf) (b : Byte) (hb : b ∈ l) :
    b ∈ buf := by
  have h1 := (List.mem_filter.1 h).1
  have h2 : ∀ (ls : List Bytes), l ∈ ls → b ∈ [(10 : Byte)].intercalate ls := by
    intro ls
    induction ls with
    | nil => intro h; simp at h
    | cons a ls ih =>
      intro h
      cases ls with
      | nil => rw [List.intercalate_singleton]; simp at h; rw [← h]; exact hb
      | cons a' ls =>
        rw [List.intercalate_cons_cons]
        rcases List.mem_cons.1 h with h | h
        · subst h; simp [hb]
        · have := ih h; simp [this]
  have := h2 _ h1
  rw [(splitLines_spec _).2] at this
  exact (List.takeWhile_sublist _).subset this

/-- C17, C19, C20, C21 for plain ASCII texts with lines of up to 1000 bytes: no further
hypothesis. -/
theorem C19_ascii (junk : Junk) (old new : Bytes) (hb : ∀ b ∈ new, b.toNat < 128)
    (hl : ∀ l ∈ nonEmptyLines new, l.length ≤ 1000) :
    ∃ k, IsLCS ((nonEmptyLines old).map lineHash) ((nonEmptyLines new).map lineHash) k ∧
      calcDiff junk old new =
        some (((nonEmptyLines new).length : Int) - k, ((nonEmptyLines old).length : Int) - k) :=
  C19_minimal_partial junk old new fun l h =>
    C21_ascii_hash_nonzero l (fun b hb' => hb b (mem_nonEmptyLines h b hb')) (hl l h)

/-! ### C22: the line hash -/

/-- C22.  Equal lines are identified: replacing texts by texts with the same non-empty
lines changes nothing in the result. -/
theorem C22_equal_lines_identified (junk : Junk) (old old' new new' : Bytes)
    (h : nonEmptyLines old = nonEmptyLines old') (h' : nonEmptyLines new = nonEmptyLines new') :
    calcDiff junk old new = calcDiff junk old' new' := by
  rw [calcDiff, calcDiff, prepare_eq, prepare_eq, prepare_eq, prepare_eq, h, h']

/-- C22, the converse fails: "A12c" and "a12b" are different lines, yet the diff of the two
texts is empty. -/
theorem C22_collision (junk : Junk) :
    ([65, 49, 50, 99] : Bytes) ≠ [97, 49, 50, 98] ∧
      calcDiff junk [65, 49, 50, 99] [97, 49, 50, 98] = some (0, 0) := by
  refine ⟨by decide, ?_⟩
  have : prepare [65, 49, 50, 99] = prepare [97, 49, 50, 98] := by decide +kernel
  rw [calcDiff, this]; exact diffValues_self junk _

/-- The changes are at least what the line sequences themselves need: identifying lines by
hash can only find more common lines. -/
theorem C22_never_more_changes_partial (junk : Junk) (old new : Bytes) (h : NoZeroHash new) (k : Nat)
    (hk : IsLCS (nonEmptyLines old) (nonEmptyLines new) k) :
    ∃ a r, calcDiff junk old new = some (a, r) ∧
      a ≤ ((nonEmptyLines new).length : Int) - k ∧ r ≤ ((nonEmptyLines old).length : Int) - k := by
  obtain ⟨k', hk', e⟩ := C19_minimal_partial junk old new h
  obtain ⟨⟨s, h1, h2, rfl⟩, _⟩ := hk
  have := hk'.2 (s.map lineHash) (h1.map lineHash) (h2.map lineHash)
  rw [List.length_map] at this
  exact ⟨_, _, e, by omega, by omega⟩

/-! ### Large texts

For texts of more than 100000 bytes the counts are taken from the output of an external
program, read in pieces of at most 9999 bytes. -/

/-- The non-terminated lines of an output: `splitLines` without the empty piece at the end
of a terminated output. -/
def outputLines (out : Bytes) : List Bytes := splitLines out

theorem fgetsAux_short (t : Bytes) : ∀ (cur : Bytes) (room : Nat), cur.length + room = 9999 →
    (∀ l ∈ (match splitLines t with | [] => [] | l :: ls => (cur.reverse ++ l) :: ls), l.length < 9999) →
    ∀ c : Byte, c ≠ 10 →
    (fgetsAux 10000 room cur t).countP (fun l => l.head? == some c) =
      (match splitLines t with | [] => [] | l :: ls => (cur.reverse ++ l) :: ls).countP
        (fun l : Bytes => l.head? == some c) := by
  induction t with
  | nil =>
    intro cur room _ _ c hc
    simp only [fgetsAux, splitLines, List.append_nil]
    cases cur with
    | nil => simp
    | cons a cur => simp
  | cons b bs ih =>
    intro cur room hroom hl c hc
    have hshow : ∀ ls : List Bytes, (match ls with | [] => [] | l :: ls => (([] : Bytes).reverse ++ l) :: ls) = ls := by
      intro ls; cases ls <;> simp
    simp only [fgetsAux]
    split
    · rename_i hb
      have h0 := ih [] 9999 rfl (by
        rw [hshow]
        intro l h
        apply hl
        simp [splitLines, hb, h]) c hc
      rw [hshow] at h0
      simp only [splitLines, hb, if_true, List.countP_cons, h0, List.append_nil]
      congr 1
      cases cur with
      | nil =>
        have : ¬ (10 : Byte) = c := fun h => hc h.symm
        simp [this]
      | cons a cur =>
        have e1 : (10 :: a :: cur).reverse.head? = (a :: cur).reverse.head? := by
          rw [List.reverse_cons (a := (10 : Byte)), List.head?_append]
          cases h : (a :: cur).reverse.head? with
          | none => simp at h
          | some x => simp
        rw [e1]
    · rename_i hb
      have hlen : (b :: cur).length < 9999 := by
        cases hs : splitLines bs with
        | nil => exact absurd hs (splitLines_ne_nil bs)
        | cons l ls =>
          have := hl (cur.reverse ++ b :: l) (by simp [splitLines, hb, hs])
          simp at this ⊢; omega
      have hr : ¬ room ≤ 1 := by simp at hlen; omega
      rw [if_neg hr, ih (b :: cur) (room - 1) (by simp at hlen ⊢; omega) ?_ c hc]
      · cases hs : splitLines bs with
        | nil => exact absurd hs (splitLines_ne_nil bs)
        | cons l ls => simp [splitLines, hb, hs]
      · intro l h
        apply hl
        cases hs : splitLines bs with
        | nil => exact absurd hs (splitLines_ne_nil bs)
        | cons l' ls => rw [hs] at h; simpa [splitLines, hb, hs] using h

/-- C47, proved part: if the lines printed by the external program are shorter than 9999 bytes,
the counts for large texts are the numbers of lines printed with a leading `>` and `<`. -/
theorem C47_large_texts_partial (ext : Bytes → Bytes → Option Bytes) (junk : Junk) (old new out : Bytes)
    (hbig : 100000 < (text old).length ∨ 100000 < (text new).length)
    (he : ext (text old) (text new) = some out)
    (hl : ∀ l ∈ outputLines out, l.length < 9999) :
    ohcountCalcDiff ext junk old new =
      some ((((outputLines out).filter (fun l => l.head? == some 62)).length : Int),
        (((outputLines out).filter (fun l => l.head? == some 60)).length : Int)) := by
  have hshow : ∀ ls : List Bytes, (match ls with | [] => [] | l :: ls => (([] : Bytes).reverse ++ l) :: ls) = ls := by
    intro ls; cases ls <;> simp
  have h1 := fgetsAux_short out [] 9999 rfl (by rw [hshow]; exact hl) 62 (by decide)
  have h2 := fgetsAux_short out [] 9999 rfl (by rw [hshow]; exact hl) 60 (by decide)
  rw [hshow] at h1 h2
  have hc : (cstr old).length > 100000 ∨ (cstr new).length > 100000 := hbig
  rw [ohcountCalcDiff, if_pos hc]
  have he' : ext (cstr old) (cstr new) = some out := he
  rw [he', Option.map_some, diskCounts, h1, h2, List.countP_eq_length_filter, List.countP_eq_length_filter]
  rfl

theorem fgetsAux_run (run : Bytes) (hr : (10 : Byte) ∉ run) : ∀ (room : Nat) (cur rest : Bytes),
    run.length < room →
    fgetsAux 10000 room cur (run ++ rest) = fgetsAux 10000 (room - run.length) (run.reverse ++ cur) rest := by
  induction run with
  | nil => intro room cur rest _; simp
  | cons b run ih =>
    intro room cur rest h
    simp only [List.mem_cons, not_or] at hr
    have h1 : ¬ b = 10 := fun e => hr.1 e.symm
    rw [List.length_cons] at h
    have h2 : ¬ room ≤ 1 := by omega
    rw [List.cons_append, fgetsAux, if_neg h1, if_neg h2, ih hr.2 _ _ _ (by omega)]
    rw [List.length_cons, show room - 1 - run.length = room - (run.length + 1) by omega]
    simp

theorem splitLines_run (t : Bytes) (h : (10 : Byte) ∉ t) : splitLines t = [t] := by
  induction t with
  | nil => rfl
  | cons b t ih =>
    simp only [List.mem_cons, not_or] at h
    have : ¬ b = 10 := fun e => h.1 e.symm
    simp [splitLines, this, ih h.2]

/-- C47, defect: a printed line of 10000 bytes is counted twice if its last byte is
a `>`. -/
theorem C47_long_line_counted_twice (run : Bytes) (hl : run.length = 9997) (hr : (10 : Byte) ∉ run) :
    (outputLines (62 :: (run ++ [97, 62]))).length = 1 ∧
      diskCounts (62 :: (run ++ [97, 62])) = (2, 0) := by
  constructor
  · rw [outputLines, splitLines_run _ (by simp [hr])]
    rfl
  · have h1 : ¬ (62 : Byte) = 10 := by decide
    have h2 : ¬ (9999 : Nat) ≤ 1 := by decide
    have h3 : ¬ (97 : Byte) = 10 := by decide
    have e : fgetsAux 10000 9999 [] (62 :: (run ++ [97, 62])) = [62 :: (run ++ [97]), [62]] := by
      rw [fgetsAux, if_neg h1, if_neg h2, fgetsAux_run run hr _ _ _ (by omega), hl]
      rw [fgetsAux, if_neg h3, if_pos (by omega), fgetsAux, if_neg h1, if_neg (by omega), fgetsAux]
      simp
    rw [diskCounts, e]
    rfl

example : ∃ run : Bytes, run.length = 9997 ∧ (10 : Byte) ∉ run :=
  ⟨List.replicate 9997 97, List.length_replicate, fun h => by
    have := List.eq_of_mem_replicate h; revert this; decide⟩

example : ∀ l ∈ outputLines [62, 32, 97, 10, 60, 32, 98, 10], l.length < 9999 := by decide

end Ohcount.DiffProps
