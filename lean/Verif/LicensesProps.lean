/-
Properties C24, C25, C26 and C48: the license list of a file.
-/
import Verif.Licenses
import Verif.ParsedLanguageProps
import Verif.DiffEquiv

namespace Ohcount.Licenses

open Ohcount Ohcount.Diff

/-! ### Specification -/

def notNl (b : Byte) : Bool := !isNl b

/-- The pieces of a text between runs of newline characters; a run at the end of the
text ends the last piece, a run at its start ends an empty one. -/
def pieces (s : Bytes) : List Bytes :=
  match s with
  | [] => []
  | b :: s => ((b :: s).takeWhile notNl) :: pieces (((b :: s).dropWhile notNl).dropWhile isNl)
termination_by s.length
decreasing_by
  have h1 : ∀ (f : Byte → Bool) (l : Bytes), (l.dropWhile f).length ≤ l.length :=
    fun f l => List.Sublist.length_le (List.dropWhile_sublist f)
  rw [List.dropWhile_cons]
  split
  · have := h1 isNl (s.dropWhile notNl)
    have := h1 notNl s
    simp only [List.length_cons]; omega
  · rename_i h
    have hb : isNl b = true := by simpa [notNl] using h
    rw [List.dropWhile_cons, if_pos hb]
    have := h1 isNl s
    simp only [List.length_cons]; omega

/-- The text that is searched for licenses: every piece without its leading blanks and
punctuation, followed by a space. -/
def searchText (s : Bytes) : Bytes := (pieces s).flatMap fun l => l.dropWhile isLead ++ [32]

/-- Entry `i` of the table is found in `text` at `m`: its expression matches there and
its exclusion, if any, does not match inside. -/
def Found (rx : Engine) (map : List License) (text : Bytes) (i : Nat) (m : Nat × Nat) : Prop :=
  ∃ lic, map[i]? = some lic ∧ rx.find i text = some m ∧
    (lic.hasExclude = true → rx.excluded i ((text.drop m.1).take (m.2 - m.1)) = false)

/-- The stretch `a` lies inside the different stretch `b`. -/
def Inside (a b : Nat × Nat) : Prop := b.1 ≤ a.1 ∧ a.2 ≤ b.2 ∧ a ≠ b

/-- Entry `i` is found, and no other found license contains its match. -/
def Kept (rx : Engine) (map : List License) (text : Bytes) (i : Nat) : Prop :=
  ∃ m, Found rx map text i m ∧ ∀ i' m', Found rx map text i' m' → ¬ Inside m m'

/-- The license called `name` is found and not contained. -/
def KeptName (rx : Engine) (map : List License) (text : Bytes) (name : String) : Prop :=
  ∃ i lic, map[i]? = some lic ∧ lic.name = name ∧ Kept rx map text i

/-- The general licenses and the ones that override them. -/
def overridePairs : List (String × String) :=
  [("gpl", "gpl3"), ("gpl", "gpl3_or_later"), ("gpl3", "gpl3_or_later"),
   ("bsd_2clause_ish", "bsd_ish")]

/-! ### The normalised text -/

theorem isNl_of_mem_lead {b : Byte} (h : isLead b = true) : notNl b = true := by
  unfold notNl isNl
  by_cases h1 : b = 13
  · subst h1; revert h; decide
  · by_cases h2 : b = 10
    · subst h2; revert h; decide
    · simp [h1, h2]

theorem take_drop_swap (p : Bytes) :
    (p.dropWhile isLead).takeWhile notNl = (p.takeWhile notNl).dropWhile isLead := by
  induction p with
  | nil => rfl
  | cons b p ih =>
    by_cases h : isLead b = true
    · rw [List.dropWhile_cons, if_pos h, List.takeWhile_cons, if_pos (isNl_of_mem_lead h),
        List.dropWhile_cons, if_pos h, ih]
    · rw [List.dropWhile_cons, if_neg h, List.takeWhile_cons]
      split
      · rw [List.dropWhile_cons, if_neg h]
      · rfl

theorem drop_drop (p : Bytes) : (p.dropWhile isLead).dropWhile notNl = p.dropWhile notNl := by
  induction p with
  | nil => rfl
  | cons b p ih =>
    by_cases h : isLead b = true
    · rw [List.dropWhile_cons, if_pos h, ih, List.dropWhile_cons (p := notNl), if_pos (isNl_of_mem_lead h)]
    · rw [List.dropWhile_cons, if_neg h]

theorem pieces_cons (p : Bytes) (h : p ≠ []) :
    pieces p = p.takeWhile notNl :: pieces ((p.dropWhile notNl).dropWhile isNl) := by
  cases p with
  | nil => exact absurd rfl h
  | cons b p => rw [pieces]

theorem searchText_cons (p : Bytes) (h : p ≠ []) :
    searchText p = (p.takeWhile notNl).dropWhile isLead ++ 32 ::
      searchText ((p.dropWhile notNl).dropWhile isNl) := by
  unfold searchText
  rw [pieces_cons p h]
  simp only [List.flatMap_cons, List.append_assoc, List.singleton_append]

theorem dropWhile_length_le (f : Byte → Bool) (l : Bytes) : (l.dropWhile f).length ≤ l.length :=
  List.Sublist.length_le (List.dropWhile_sublist f)

theorem take_add_drop (f : Byte → Bool) (l : Bytes) :
    (l.takeWhile f).length + (l.dropWhile f).length = l.length := by
  have := congrArg List.length (List.takeWhile_append_dropWhile (p := f) (l := l))
  rw [List.length_append] at this
  exact this

/-- After the line, at least one byte goes with the newline characters. -/
theorem rest_shorter (p : Bytes) (hr : p.dropWhile notNl ≠ []) :
    ((p.dropWhile notNl).dropWhile isNl).length + 1 ≤ (p.dropWhile notNl).length := by
  cases h : p.dropWhile notNl with
  | nil => exact absurd h hr
  | cons b r =>
    have hb : ¬ notNl b = true := by
      have := List.head_dropWhile_not (p := notNl) (l := p) (by rw [h]; simp)
      simp only [h, List.head_cons] at this
      simp [this]
    have hb' : isNl b = true := by simpa [notNl] using hb
    rw [List.dropWhile_cons, if_pos hb']
    have := dropWhile_length_le isNl r
    simp only [List.length_cons]; omega

theorem searchText_length (n : Nat) : ∀ p : Bytes, p.length ≤ n →
    (searchText p).length ≤ p.length + 1 := by
  induction n with
  | zero =>
    intro p hp
    have : p = [] := List.length_eq_zero_iff.mp (by omega)
    subst this; simp [searchText, pieces]
  | succ n ih =>
    intro p hp
    by_cases h0 : p = []
    · subst h0; simp [searchText, pieces]
    rw [searchText_cons p h0, List.length_append, List.length_cons]
    have h1 := dropWhile_length_le isLead (p.takeWhile notNl)
    have h2 := take_add_drop notNl p
    by_cases hr : p.dropWhile notNl = []
    · rw [hr] at h2 ⊢
      simp only [List.length_nil] at h2
      have h3 : (searchText (List.dropWhile isNl [])).length = 0 := by simp [searchText, pieces]
      omega
    · have h3 := rest_shorter p hr
      have h4 : 0 < (p.dropWhile notNl).length := List.length_pos_iff.mpr hr
      have := ih ((p.dropWhile notNl).dropWhile isNl) (by omega)
      omega

theorem take_set (mem : Bytes) (q : Nat) (v : Byte) (h : q < mem.length) :
    (mem.set q v).take (q + 1) = mem.take q ++ [v] := by
  rw [List.take_add_one, List.take_set_of_le (Nat.le_refl q)]
  simp [h]

theorem copyLine_spec (qmax : Nat) : ∀ (p mem : Bytes) (q : Nat), mem.length = qmax →
    q + (p.takeWhile notNl).length ≤ qmax →
    ∃ mem', copyLine qmax p mem q =
        some (p.dropWhile notNl, mem', q + (p.takeWhile notNl).length) ∧
      mem'.length = qmax ∧
      mem'.take (q + (p.takeWhile notNl).length) = mem.take q ++ p.takeWhile notNl := by
  intro p
  induction p with
  | nil => intro mem q hm _; exact ⟨mem, by simp [copyLine], hm, by simp⟩
  | cons b p ih =>
    intro mem q hm hq
    by_cases hb : notNl b = true
    · rw [List.takeWhile_cons, if_pos hb] at hq ⊢
      rw [List.dropWhile_cons, if_pos hb]
      simp only [List.length_cons] at hq ⊢
      have hb2 : b ≠ 13 ∧ b ≠ 10 := by
        simpa [notNl, isNl] using hb
      obtain ⟨mem', e, hl, ht⟩ := ih (mem.set q b) (q + 1) (by simp [hm]) (by omega)
      refine ⟨mem', ?_, hl, ?_⟩
      · rw [copyLine, if_pos ⟨hb2.1, hb2.2, by omega⟩, store, if_pos (by omega)]
        simp only [Option.bind_some]
        rw [e]
        congr 3; omega
      · rw [show q + ((p.takeWhile notNl).length + 1) = q + 1 + (p.takeWhile notNl).length by omega,
          ht, take_set mem q b (by omega)]
        simp
    · rw [List.takeWhile_cons, if_neg hb] at hq ⊢
      rw [List.dropWhile_cons, if_neg hb]
      have hb2 : ¬ (b ≠ 13 ∧ b ≠ 10 ∧ q < qmax) := by
        intro h
        apply hb
        simp [notNl, isNl, h.1, h.2.1]
      exact ⟨mem, by rw [copyLine, if_neg hb2]; rfl, hm, by simp⟩

theorem stripLoop_spec (qmax : Nat) : ∀ (fuel : Nat) (p mem : Bytes) (q : Nat),
    p.length < fuel → mem.length = qmax → q + (searchText p).length ≤ qmax →
    ∃ mem', stripLoop qmax fuel p mem q = some (mem', q + (searchText p).length) ∧
      mem'.length = qmax ∧ mem'.take (q + (searchText p).length) = mem.take q ++ searchText p := by
  intro fuel
  induction fuel with
  | zero => intro p mem q h; omega
  | succ fuel ih =>
    intro p mem q hf hm hq
    by_cases h0 : p = []
    · subst h0
      refine ⟨mem, ?_, hm, ?_⟩
      · rw [stripLoop, if_neg (by simp)]; simp [searchText, pieces]
      · simp [searchText, pieces]
    have hs := searchText_cons p h0
    have hlen := congrArg List.length hs
    simp only [List.length_append, List.length_cons] at hlen
    have hline : ((p.dropWhile isLead).takeWhile notNl) = (p.takeWhile notNl).dropWhile isLead :=
      take_drop_swap p
    obtain ⟨m1, e1, l1, t1⟩ := copyLine_spec qmax (p.dropWhile isLead) mem q hm
      (by rw [hline]; omega)
    rw [hline] at e1 t1
    rw [drop_drop] at e1
    have hrest : ((p.dropWhile notNl).dropWhile isNl).length < fuel := by
      by_cases hr : p.dropWhile notNl = []
      · rw [hr]
        have : 0 < p.length := List.length_pos_iff.mpr h0
        simp only [List.dropWhile_nil, List.length_nil]; omega
      · have := rest_shorter p hr
        have := dropWhile_length_le notNl p
        omega
    have hq1 : q + ((p.takeWhile notNl).dropWhile isLead).length < qmax := by omega
    obtain ⟨m2, e2, l2, t2⟩ := ih ((p.dropWhile notNl).dropWhile isNl)
      (m1.set (q + ((p.takeWhile notNl).dropWhile isLead).length) 32)
      (q + ((p.takeWhile notNl).dropWhile isLead).length + 1) hrest (by simp [l1]) (by omega)
    refine ⟨m2, ?_, l2, ?_⟩
    · rw [stripLoop, if_pos ⟨h0, by omega⟩, e1]
      simp only [Option.bind_some]
      rw [if_pos hq1, store, if_pos (by omega)]
      simp only [Option.bind_some]
      rw [e2]
      congr 2; omega
    · rw [show q + (searchText p).length = q + ((p.takeWhile notNl).dropWhile isLead).length + 1 +
          (searchText ((p.dropWhile notNl).dropWhile isNl)).length by omega, t2,
        take_set m1 _ _ (by omega), t1, hs]
      simp

theorem byte_forall {p : Byte → Prop} (h : ∀ n : Fin 256, p (UInt8.ofNat n.val)) (b : Byte) : p b := by
  have := h ⟨b.toNat, b.toNat_lt⟩
  rwa [UInt8.ofNat_toNat] at this

/-- C48: the blanks and punctuation dropped at the start of a piece, and the characters between pieces. -/
theorem C48_characters (b : Byte) :
    (isLead b = true ↔ b.toNat ∈ (" \t!\"#$%&'()*+,-./:;<=>?@[\\]^_`{|}~".toList.map Char.toNat)) ∧
    (notNl b = false ↔ b.toNat ∈ ("\r\n".toList.map Char.toNat)) := by
  revert b
  apply byte_forall
  decide +kernel

/-- C48: for every comments buffer, the loop that normalises it before the license search
ends, stays inside the allocation of `strlen + 1` bytes, truncates nothing, and yields
the pieces of the text between newlines without their leading blanks and punctuation,
each followed by a space; what fresh memory contains does not matter. -/
theorem C48_search_text (junk : Byte) (comments : Bytes) :
    normalise junk comments = some (searchText (cstr comments)) := by
  have hl := searchText_length _ (cstr comments) (Nat.le_refl _)
  obtain ⟨m, e, l, t⟩ := stripLoop_spec ((cstr comments).length + 1) ((cstr comments).length + 1)
    (cstr comments) (List.replicate ((cstr comments).length + 1) junk) 0 (by omega) (by simp)
    (by omega)
  simp only [Nat.zero_add, List.take_zero, List.nil_append] at e t
  unfold normalise
  simp only
  rw [e]
  simp only [Option.bind_some]
  split
  · rename_i h
    rw [store, if_pos (by omega)]
    simp only [Option.map_some]
    rw [List.take_set_of_le (Nat.le_refl _), t]
  · rw [t]

/-- Two comment lines, a blank one between them. -/
example : normalise 7 " * GNU\n *\n\n * GPL\n".toUTF8.toList = some "GNU  GPL ".toUTF8.toList := by
  decide +kernel

/-! ### Containment -/

/-- What the loop keeps in mind of entry `k` after `j` entries, as a function of the
matches `M` of the entries: the match, unless another one contains it. -/
noncomputable def keptVal (M : Nat → Option (Nat × Nat)) (j k : Nat) : Int × Int :=
  open Classical in
  match M k with
  | none => (-1, -1)
  | some m => if ∃ l < j, ∃ m', M l = some m' ∧ Inside m m' then (-1, -1)
    else ((m.1 : Int), (m.2 : Int))

theorem Inside.trans {a b c : Nat × Nat} (h1 : Inside a b) (h2 : Inside b c) : Inside a c := by
  obtain ⟨a1, a2⟩ := a; obtain ⟨b1, b2⟩ := b; obtain ⟨c1, c2⟩ := c
  simp only [Inside, ne_eq, Prod.mk.injEq, not_and] at *
  refine ⟨by omega, by omega, ?_⟩
  intro h; omega

theorem exists_max (P : Nat → Prop) (f : Nat → Int) : ∀ n, (∃ l < n, P l) →
    ∃ l < n, P l ∧ ∀ l' < n, P l' → f l' ≤ f l := by
  intro n
  induction n with
  | zero => rintro ⟨l, h, _⟩; omega
  | succ n ih =>
    intro hex
    by_cases hn : ∃ l < n, P l
    · obtain ⟨l, hl, hp, hmax⟩ := ih hn
      by_cases hP : P n ∧ f l < f n
      · refine ⟨n, by omega, hP.1, ?_⟩
        intro l' hl' hp'
        by_cases h : l' = n
        · subst h; omega
        · have := hmax l' (by omega) hp'; omega
      · refine ⟨l, by omega, hp, ?_⟩
        intro l' hl' hp'
        by_cases h : l' = n
        · subst h; have : ¬ f l < f l' := fun h => hP ⟨hp', h⟩
          omega
        · exact hmax l' (by omega) hp'
    · obtain ⟨l, hl, hp⟩ := hex
      have : l = n := by
        by_cases h : l = n
        · exact h
        · exact absurd ⟨l, by omega, hp⟩ hn
      subst this
      refine ⟨l, hl, hp, ?_⟩
      intro l' hl' hp'
      by_cases h : l' = l
      · subst h; omega
      · exact absurd ⟨l', by omega, hp'⟩ hn

theorem inside_iff (a b : Nat × Nat) :
    Inside a b ↔ (((b.1 : Int) < a.1 ∧ (b.2 : Int) ≥ a.2) ∨ ((b.1 : Int) ≤ a.1 ∧ (b.2 : Int) > a.2)) := by
  obtain ⟨a1, a2⟩ := a; obtain ⟨b1, b2⟩ := b
  simp only [Inside, ne_eq, Prod.mk.injEq, not_and]
  constructor
  · rintro ⟨h1, h2, h3⟩
    by_cases h : a1 = b1
    · have := h3 h; omega
    · omega
  · intro h
    refine ⟨by omega, by omega, ?_⟩
    intro h'; omega

/-- If some entry below `j` contains `m`, one that is still kept does. -/
theorem kept_container (M : Nat → Option (Nat × Nat)) (j : Nat) (m : Nat × Nat)
    (h : ∃ l < j, ∃ m', M l = some m' ∧ Inside m m') :
    ∃ l < j, ∃ m', M l = some m' ∧ Inside m m' ∧ keptVal M j l = ((m'.1 : Int), (m'.2 : Int)) := by
  obtain ⟨l, hl, ⟨m', hm', hin⟩, hmax⟩ := exists_max (fun l => ∃ m', M l = some m' ∧ Inside m m')
    (fun l => match M l with | some m => (m.2 : Int) - m.1 | none => 0) j
    (by obtain ⟨l, a, b⟩ := h; exact ⟨l, a, b⟩)
  refine ⟨l, hl, m', hm', hin, ?_⟩
  unfold keptVal
  rw [hm']
  simp only
  rw [if_neg]
  rintro ⟨l2, hl2, m2, hm2, hin2⟩
  have h2 := hmax l2 hl2 ⟨m2, hm2, hin.trans hin2⟩
  simp only [hm', hm2] at h2
  obtain ⟨x1, x2⟩ := m'; obtain ⟨y1, y2⟩ := m2
  simp only [Inside, ne_eq, Prod.mk.injEq, not_and] at hin2 h2
  obtain ⟨g1, g2, g3⟩ := hin2
  by_cases hx : x1 = y1
  · have := g3 hx; omega
  · omega

/-- The test the C code makes for `k` containing `(m0, m1)`. -/
def tests (v : Int × Int) (m : Nat × Nat) : Prop :=
  (v.1 < m.1 ∧ v.2 ≥ m.2) ∨ (v.1 ≤ m.1 ∧ v.2 > m.2)

instance (v : Int × Int) (m : Nat × Nat) : Decidable (tests v m) := by
  unfold tests; infer_instance

theorem tests_keptVal (M : Nat → Option (Nat × Nat)) (j k : Nat) (m : Nat × Nat)
    (h : tests (keptVal M j k) m) : ∃ m', M k = some m' ∧ Inside m m' := by
  unfold keptVal at h
  split at h
  · unfold tests at h; dsimp only at h; omega
  · rename_i m' hm'
    split at h
    · unfold tests at h; dsimp only at h; omega
    · exact ⟨m', hm', (inside_iff m m').mpr h⟩

/-- The inner loop, as a function of the values before it. -/
theorem contains_spec (j : Nat) (m : Nat × Nat) : ∀ (n k : Nat) (ps : Potential) (v : Nat → Int × Int),
    k + n = j → j < ps.length → (∀ x, k ≤ x → x < j → ps[x]? = some (v x)) →
    ∃ ps', contains j m.1 m.2 n k ps = some ps' ∧ ps'.length = ps.length ∧
      (∀ x, x < k → ps'[x]? = ps[x]?) ∧ (∀ x, j < x → ps'[x]? = ps[x]?) ∧
      (∀ x, k ≤ x → x < j → ps'[x]? = some (
        if ((m.1 : Int) < (v x).1 ∧ (m.2 : Int) ≥ (v x).2) ∨ ((m.1 : Int) ≤ (v x).1 ∧ (m.2 : Int) > (v x).2)
        then (-1, -1) else v x)) ∧
      (((∃ x, k ≤ x ∧ x < j ∧ tests (v x) m) → ps'[j]? = some (-1, -1)) ∧
       (¬ (∃ x, k ≤ x ∧ x < j ∧ tests (v x) m) → ps'[j]? = ps[j]?)) := by
  intro n
  induction n with
  | zero =>
    intro k ps v hk hj hv
    refine ⟨ps, rfl, rfl, fun _ _ => rfl, fun _ _ => rfl, ?_, ?_, fun _ => rfl⟩
    · intro x h1 h2; omega
    · rintro ⟨x, h1, h2, _⟩; omega
  | succ n ih =>
    intro k ps v hk hj hv
    have hk0 := hv k (by omega) (by omega)
    -- the two updates
    let ps1 : Potential := if tests (v k) m then ps.set j (-1, -1) else ps
    let ps2 : Potential :=
      if ((m.1 : Int) < (v k).1 ∧ (m.2 : Int) ≥ (v k).2) ∨ ((m.1 : Int) ≤ (v k).1 ∧ (m.2 : Int) > (v k).2)
      then ps1.set k (-1, -1) else ps1
    have l1 : ps1.length = ps.length := by
      show (ite _ _ _ : Potential).length = _; split <;> simp
    have l2 : ps2.length = ps.length := by
      show (ite _ _ _ : Potential).length = _; split <;> simp [l1]
    have step : contains j m.1 m.2 (n + 1) k ps = contains j m.1 m.2 n (k + 1) ps2 := by
      rw [contains, hk0]
      simp only [Option.bind_some]
      have e1 : (if ((v k).1 < (m.1 : Int) ∧ (v k).2 ≥ (m.2 : Int)) ∨ ((v k).1 ≤ (m.1 : Int) ∧ (v k).2 > (m.2 : Int))
          then put ps j (-1, -1) else some ps) = some ps1 := by
        show _ = some (ite _ _ _)
        by_cases ht : tests (v k) m
        · rw [if_pos ht, if_pos (show _ ∨ _ from ht)]; exact put_ok ps j _ hj
        · rw [if_neg ht, if_neg (show ¬ (_ ∨ _) from ht)]
      rw [e1]
      simp only [Option.bind_some]
      have e2 : (if ((m.1 : Int) < (v k).1 ∧ (m.2 : Int) ≥ (v k).2) ∨ ((m.1 : Int) ≤ (v k).1 ∧ (m.2 : Int) > (v k).2)
          then put ps1 k (-1, -1) else some ps1) = some ps2 := by
        show _ = some (ite _ _ _)
        split
        · exact put_ok ps1 k _ (by omega)
        · rfl
      rw [e2]
      rfl
    have g1 : ∀ x, x ≠ j → ps1[x]? = ps[x]? := by
      intro x hx
      show (ite _ _ _ : Potential)[x]? = _
      split
      · rw [List.getElem?_set_ne (fun h => hx h.symm)]
      · rfl
    have g2 : ∀ x, x ≠ k → ps2[x]? = ps1[x]? := by
      intro x hx
      show (ite _ _ _ : Potential)[x]? = _
      split
      · rw [List.getElem?_set_ne (fun h => hx h.symm)]
      · rfl
    obtain ⟨ps', e, hl, ha, hb, hc, hd1, hd2⟩ := ih (k + 1) ps2 v (by omega) (by omega) (by
      intro x h1 h2
      rw [g2 x (by omega), g1 x (by omega)]
      exact hv x (by omega) h2)
    refine ⟨ps', by rw [step]; exact e, by omega, ?_, ?_, ?_, ?_, ?_⟩
    · intro x hx; rw [ha x (by omega), g2 x (by omega), g1 x (by omega)]
    · intro x hx; rw [hb x (by omega), g2 x (by omega), g1 x (by omega)]
    · intro x h1 h2
      by_cases hx : x = k
      · subst hx
        rw [ha x (by omega)]
        show (ite _ _ _ : Potential)[x]? = _
        split
        · rw [List.getElem?_set_self (by omega)]
        · rw [g1 x (by omega), hk0]
      · exact hc x (by omega) h2
    · rintro ⟨x, h1, h2, h3⟩
      by_cases hex : ∃ x, k + 1 ≤ x ∧ x < j ∧ tests (v x) m
      · exact hd1 hex
      · rw [hd2 hex, g2 j (by omega)]
        have : x = k := by
          by_cases hx : x = k
          · exact hx
          · exact absurd ⟨x, by omega, h2, h3⟩ hex
        subst this
        show (ite _ _ _ : Potential)[j]? = _
        rw [if_pos h3, List.getElem?_set_self hj]
    · intro hno
      rw [hd2 (fun ⟨x, a, b, c⟩ => hno ⟨x, by omega, b, c⟩), g2 j (by omega)]
      show (ite _ _ _ : Potential)[j]? = _
      rw [if_neg (fun h => hno ⟨k, Nat.le_refl _, by omega, h⟩)]

/-- One round of the table loop. -/
theorem round_spec (M : Nat → Option (Nat × Nat)) (j : Nat) (ps : Potential) (m : Nat × Nat)
    (hj : j < ps.length) (hv : ∀ x, x < j → ps[x]? = some (keptVal M j x)) (hm : M j = some m) :
    ∃ ps', contains j m.1 m.2 j 0 (ps.set j ((m.1 : Int), (m.2 : Int))) = some ps' ∧
      ps'.length = ps.length ∧ (∀ x, x < j + 1 → ps'[x]? = some (keptVal M (j + 1) x)) := by
  obtain ⟨ps', e, hl, _, _, hc, hd1, hd2⟩ := contains_spec j m j 0 (ps.set j ((m.1 : Int), (m.2 : Int)))
    (keptVal M j) (by omega) (by simpa using hj) (by
      intro x _ hx
      rw [List.getElem?_set_ne (by omega)]
      exact hv x hx)
  refine ⟨ps', e, by simpa using hl, ?_⟩
  intro x hx
  by_cases hxj : x = j
  · subst hxj
    have hself : ¬ Inside m m := fun h => h.2.2 rfl
    by_cases hex : ∃ l < x, ∃ m', M l = some m' ∧ Inside m m'
    · obtain ⟨l, hl', m', hm', hin, hk⟩ := kept_container M x m hex
      rw [hd1 ⟨l, by omega, hl', by rw [hk]; exact (inside_iff m m').mp hin⟩]
      unfold keptVal
      rw [hm]
      simp only
      rw [if_pos ⟨l, by omega, m', hm', hin⟩]
    · rw [hd2, List.getElem?_set_self hj]
      · unfold keptVal
        rw [hm]
        simp only
        rw [if_neg]
        rintro ⟨l, hl', m', hm', hin⟩
        by_cases h : l = x
        · subst h; rw [hm] at hm'; cases hm'; exact hself hin
        · exact hex ⟨l, by omega, m', hm', hin⟩
      · rintro ⟨l, _, hl', ht⟩
        obtain ⟨m', hm', hin⟩ := tests_keptVal M x l m ht
        exact hex ⟨l, hl', m', hm', hin⟩
  · rw [hc x (by omega) (by omega)]
    congr 1
    cases hMx : M x with
    | none =>
      have : ∀ n, keptVal M n x = (-1, -1) := by intro n; unfold keptVal; rw [hMx]
      rw [this, this]
      split <;> rfl
    | some mx =>
      by_cases hex : ∃ l < j, ∃ m', M l = some m' ∧ Inside mx m'
      · have h1 : keptVal M j x = (-1, -1) := by unfold keptVal; rw [hMx]; simp only; rw [if_pos hex]
        have h2 : keptVal M (j + 1) x = (-1, -1) := by
          unfold keptVal; rw [hMx]; simp only; rw [if_pos]
          obtain ⟨l, a, b⟩ := hex; exact ⟨l, by omega, b⟩
        rw [h1, h2]; split <;> rfl
      · have h1 : keptVal M j x = ((mx.1 : Int), (mx.2 : Int)) := by
          unfold keptVal; rw [hMx]; simp only; rw [if_neg hex]
        rw [h1]
        have hin := inside_iff mx m
        by_cases hi : Inside mx m
        · rw [if_pos (hin.mp hi)]
          unfold keptVal; rw [hMx]; simp only; rw [if_pos ⟨j, by omega, m, hm, hi⟩]
        · rw [if_neg (fun h => hi (hin.mpr h))]
          unfold keptVal; rw [hMx]; simp only; rw [if_neg]
          rintro ⟨l, hl', m', hm', hin'⟩
          by_cases h : l = j
          · subst h; rw [hm] at hm'; cases hm'; exact hi hin'
          · exact hex ⟨l, by omega, m', hm', hin'⟩

theorem keptVal_none (M : Nat → Option (Nat × Nat)) (j x : Nat) (h : M j = none) :
    keptVal M (j + 1) x = keptVal M j x := by
  unfold keptVal
  cases M x with
  | none => rfl
  | some mx =>
    simp only
    have : (∃ l < j + 1, ∃ m', M l = some m' ∧ Inside mx m') ↔ (∃ l < j, ∃ m', M l = some m' ∧ Inside mx m') := by
      constructor
      · rintro ⟨l, hl, m', hm', hi⟩
        by_cases e : l = j
        · subst e; rw [h] at hm'; cases hm'
        · exact ⟨l, by omega, m', hm', hi⟩
      · rintro ⟨l, hl, r⟩; exact ⟨l, by omega, r⟩
    by_cases h1 : ∃ l < j, ∃ m', M l = some m' ∧ Inside mx m'
    · rw [if_pos h1, if_pos (this.mpr h1)]
    · rw [if_neg h1, if_neg (fun h => h1 (this.mp h))]

/-- The matches of the entries of a table. -/
def matchesOf (rx : Engine) (map : List License) (text : Bytes) (i : Nat) : Option (Nat × Nat) :=
  (map[i]?).bind fun lic => matchOf rx i lic text

theorem matchLoop_spec (rx : Engine) (text : Bytes) (map : List License) :
    ∀ (rest : List License) (done : List License) (ps : Potential), map = done ++ rest →
    ps.length = map.length →
    (∀ x, x < done.length → ps[x]? = some (keptVal (matchesOf rx map text) done.length x)) →
    ∃ ps', matchLoop rx text done.length rest ps = some ps' ∧ ps'.length = map.length ∧
      ∀ x, x < map.length → ps'[x]? = some (keptVal (matchesOf rx map text) map.length x) := by
  intro rest
  induction rest with
  | nil =>
    intro done ps hm hl hv
    rw [List.append_nil] at hm
    subst hm
    exact ⟨ps, rfl, hl, hv⟩
  | cons lic rest ih =>
    intro done ps hm hl hv
    have hlen : done.length < map.length := by rw [hm]; simp
    have hget : map[done.length]? = some lic := by rw [hm]; simp
    have hM : matchesOf rx map text done.length = matchOf rx done.length lic text := by
      unfold matchesOf; rw [hget]; rfl
    have hmap : map = (done ++ [lic]) ++ rest := by rw [hm]; simp
    have hdl : (done ++ [lic]).length = done.length + 1 := by simp
    rw [matchLoop, put_ok ps _ _ (by omega)]
    simp only [Option.bind_some]
    cases hmm : matchOf rx done.length lic text with
    | none =>
      simp only
      have := ih (done ++ [lic]) (ps.set done.length (-1, -1)) hmap (by simp [hl]) (by
        intro x hx
        rw [hdl] at hx ⊢
        rw [keptVal_none _ _ _ (by rw [hM, hmm])]
        by_cases e : x = done.length
        · subst e
          rw [List.getElem?_set_self (by omega)]
          unfold keptVal; rw [hM, hmm]
        · rw [List.getElem?_set_ne (by omega)]
          exact hv x (by omega))
      rw [hdl] at this
      exact this
    | some m =>
      simp only
      rw [put_ok _ _ _ (by simp; omega)]
      simp only [Option.bind_some]
      obtain ⟨ps', e, hl', hv'⟩ := round_spec (matchesOf rx map text) done.length
        (ps.set done.length (-1, -1)) m (by simp; omega) (by
          intro x hx
          rw [List.getElem?_set_ne (by omega)]
          exact hv x hx) (by rw [hM, hmm])
      rw [e]
      simp only [Option.bind_some]
      have := ih (done ++ [lic]) ps' hmap (by rw [hl']; simp [hl]) (by
        rw [hdl]; exact hv')
      rw [hdl] at this
      exact this

theorem found_iff (rx : Engine) (map : List License) (text : Bytes) (i : Nat) (m : Nat × Nat) :
    Found rx map text i m ↔ matchesOf rx map text i = some m := by
  unfold Found matchesOf matchOf
  cases map[i]? with
  | none => simp
  | some lic =>
    simp only [Option.some.injEq, exists_eq_left', Option.bind_some]
    cases rx.find i text with
    | none => simp
    | some m' =>
      obtain ⟨a, b⟩ := m'
      simp only [Option.some.injEq]
      by_cases he : lic.hasExclude = true
      · by_cases hx : rx.excluded i ((text.drop a).take (b - a)) = true
        · simp only [he, hx, Bool.and_self, if_true]
          constructor
          · rintro ⟨rfl, h⟩; simp [hx] at h
          · intro h; cases h
        · simp only [Bool.not_eq_true] at hx
          simp only [he, hx, Bool.and_false, Bool.false_eq_true, if_false, Option.some.injEq]
          constructor
          · rintro ⟨h, _⟩; exact h
          · rintro rfl; exact ⟨rfl, fun _ => hx⟩
      · simp only [Bool.not_eq_true] at he
        simp [he]

theorem kept_iff (rx : Engine) (map : List License) (text : Bytes) (i : Nat) :
    Kept rx map text i ↔ (keptVal (matchesOf rx map text) map.length i).1 > -1 := by
  unfold Kept keptVal
  constructor
  · rintro ⟨m, hm, hno⟩
    rw [found_iff] at hm
    rw [hm]
    simp only
    rw [if_neg]
    · dsimp only; omega
    · rintro ⟨l, _, m', hm', hin⟩
      exact hno l m' ((found_iff ..).mpr hm') hin
  · intro h
    cases hm : matchesOf rx map text i with
    | none => rw [hm] at h; simp at h
    | some m =>
      rw [hm] at h
      simp only at h
      refine ⟨m, (found_iff ..).mpr hm, ?_⟩
      intro i' m' hf hin
      have hi' : i' < map.length := by
        obtain ⟨lic, hl, _⟩ := hf
        exact (List.getElem?_eq_some_iff.mp hl).1
      rw [if_pos ⟨i', hi', m', (found_iff ..).mp hf, hin⟩] at h
      simp at h

/-- The potential arrays after a language, whatever they were before. -/
theorem matchLoop_ok (rx : Engine) (map : List License) (text : Bytes) (ps : Potential)
    (hl : ps.length = map.length) :
    ∃ ps', matchLoop rx text 0 map ps = some ps' ∧ ps'.length = map.length ∧
      ∀ x, x < map.length → ps'[x]? = some (keptVal (matchesOf rx map text) map.length x) :=
  matchLoop_spec rx text map map [] ps rfl hl (by intro x hx; simp at hx)

theorem languageLoop_ok (rx : Engine) (junk : Byte) (map : List License) :
    ∀ (pls : List ParsedLanguage) (ps : Potential), ps.length = map.length →
    ∃ ps', languageLoop rx junk map pls ps = some ps' ∧ ps'.length = map.length ∧
      ∀ (h : pls ≠ []) (x : Nat), x < map.length →
        ps'[x]? = some (keptVal (matchesOf rx map (searchText (cstr (pls.getLast h).comments.mem)))
          map.length x) := by
  intro pls
  induction pls with
  | nil => intro ps hl; exact ⟨ps, rfl, hl, fun h => absurd rfl h⟩
  | cons pl rest ih =>
    intro ps hl
    obtain ⟨ps1, e1, l1, v1⟩ := matchLoop_ok rx map (searchText (cstr pl.comments.mem)) ps hl
    obtain ⟨ps2, e2, l2, v2⟩ := ih ps1 l1
    refine ⟨ps2, ?_, l2, ?_⟩
    · rw [languageLoop, C48_search_text]
      simp only [Option.bind_some]
      rw [e1]
      exact e2
    · intro _ x hx
      cases rest with
      | nil =>
        rw [languageLoop] at e2
        cases e2
        exact v1 x hx
      | cons pl' rest' =>
        rw [List.getLast_cons (by simp)]
        exact v2 (by simp) x hx

theorem any_iff (map : List License) (ps : Potential) (hl : ps.length = map.length) (name : String) :
    ((map.zip ps).any fun (lic, se) => decide (se.1 > -1) && lic.name == name) = true ↔
      ∃ (i : Nat) (lic : License) (v : Int × Int), map[i]? = some lic ∧ ps[i]? = some v ∧ lic.name = name ∧ v.1 > -1 := by
  rw [List.any_eq_true]
  constructor
  · rintro ⟨⟨lic, se⟩, hmem, h⟩
    obtain ⟨i, hi, he⟩ := List.getElem_of_mem hmem
    have := List.getElem?_eq_getElem hi
    rw [he, List.getElem?_zip_eq_some] at this
    simp only [Bool.and_eq_true, decide_eq_true_eq, beq_iff_eq] at h
    exact ⟨i, lic, se, this.1, this.2, h.2, h.1⟩
  · rintro ⟨i, lic, v, h1, h2, h3, h4⟩
    refine ⟨(lic, v), ?_, by simp [h3]; omega⟩
    exact List.mem_of_getElem? (List.getElem?_zip_eq_some.mpr ⟨h1, h2⟩)

theorem mem_collect (map : List License) (ps : Potential) (hl : ps.length = map.length) (name : String) :
    name ∈ collect map ps ↔
      (∃ (i : Nat) (lic : License) (v : Int × Int), map[i]? = some lic ∧ ps[i]? = some v ∧ lic.name = name ∧ v.1 > -1) ∧
      overridden map ps name = false := by
  unfold collect
  rw [← any_iff map ps hl name, List.any_eq_true, List.mem_map]
  constructor
  · rintro ⟨⟨lic, se⟩, hmem, rfl⟩
    rw [List.mem_filter] at hmem
    obtain ⟨h1, h2⟩ := hmem
    simp only [Bool.and_eq_true, Bool.not_eq_true'] at h2
    exact ⟨⟨(lic, se), h1, by simpa using h2.1⟩, h2.2⟩
  · rintro ⟨⟨⟨lic, se⟩, hmem, h⟩, ho⟩
    simp only [Bool.and_eq_true, beq_iff_eq] at h
    refine ⟨(lic, se), List.mem_filter.mpr ⟨hmem, ?_⟩, h.2⟩
    simp only [h.2, ho, h.1]; rfl

/-! ### The properties -/

theorem detect_eq (rx : Engine) (junk : Byte) (jp : Int × Int) (map : List License)
    (pls : List ParsedLanguage) (h : pls ≠ []) : detectLicense rx junk jp map pls =
      (languageLoop rx junk map pls (List.replicate map.length jp)).map (collect map) := by
  cases pls with
  | nil => exact absurd rfl h
  | cons a b => rfl

theorem zip_fst_sublist {α β : Type} : ∀ (l : List α) (r : List β),
    ((l.zip r).map fun x : α × β => x.1).Sublist l
  | [], _ => by simp
  | a :: l, [] => by simp
  | a :: l, b :: r => by
    rw [List.zip_cons_cons, List.map_cons]
    exact (zip_fst_sublist l r).cons_cons a

/-- The license detection is defined (no access outside an array or buffer) for every
file, regular-expression behaviour, license table and content of fresh memory. -/
theorem C24_defined (rx : Engine) (junk : Byte) (jp : Int × Int) (map : List License)
    (pls : List ParsedLanguage) : ∃ out, detectLicense rx junk jp map pls = some out := by
  cases pls with
  | nil => exact ⟨[], rfl⟩
  | cons pl rest =>
    obtain ⟨ps, e, _, _⟩ := languageLoop_ok rx junk map (pl :: rest) (List.replicate map.length jp)
      (by simp)
    exact ⟨collect map ps, by rw [detect_eq _ _ _ _ _ (by simp), e]; rfl⟩

theorem collect_sublist (map : List License) (ps : Potential) :
    (collect map ps).Sublist (map.map License.name) := by
  unfold collect
  have h1 := zip_fst_sublist map ps
  have h2 := (List.filter_sublist (p := fun x : License × (Int × Int) =>
    decide (x.2.1 > -1) && !overridden map ps x.1.name) (l := map.zip ps)).map
      (fun x : License × (Int × Int) => x.1.name)
  have h3 := h1.map License.name
  rw [List.map_map] at h3
  exact h2.trans h3

/-- No license occurs twice in the table. -/
theorem licenseMap_nodup : (licenseMap.map License.name).Nodup := by decide +kernel

/-- C24: the license list of every file is a sublist of the license table, in table order,
and contains no license twice, whatever the regular-expression matcher answers. -/
theorem C24_once_in_table_order (rx : Engine) (junk : Byte) (jp : Int × Int)
    (pls : List ParsedLanguage) (out : List String)
    (h : detectLicense rx junk jp licenseMap pls = some out) :
    out.Nodup ∧ out.Sublist (licenseMap.map License.name) := by
  have hs : out.Sublist (licenseMap.map License.name) := by
    cases pls with
    | nil => cases h; exact List.nil_sublist _
    | cons pl rest =>
      rw [detect_eq _ _ _ _ _ (by simp)] at h
      simp only [Option.map_eq_some_iff] at h
      obtain ⟨ps, _, rfl⟩ := h
      exact collect_sublist licenseMap ps
  exact ⟨hs.nodup licenseMap_nodup, hs⟩

/-- C26: which licenses are reported. For a file with at least one parsed language, the
license called `name` is reported exactly when it is found in the (normalised) comments
of the last language and not contained in another found license, and no license that
overrides it is so found. -/
theorem C26_reported_iff (rx : Engine) (junk : Byte) (jp : Int × Int) (map : List License)
    (pls : List ParsedLanguage) (hne : pls ≠ []) (out : List String)
    (h : detectLicense rx junk jp map pls = some out) (name : String) :
    let text := searchText (cstr (pls.getLast hne).comments.mem)
    name ∈ out ↔ KeptName rx map text name ∧
      ∀ g s, (g, s) ∈ overridePairs → name = g → ¬ KeptName rx map text s := by
  intro text
  obtain ⟨ps, e, hl, hv⟩ := languageLoop_ok rx junk map pls (List.replicate map.length jp) (by simp)
  have hout : out = collect map ps := by
    rw [detect_eq _ _ _ _ _ hne, e] at h; cases h; rfl
  have hkn : ∀ n, (∃ (i : Nat) (lic : License) (v : Int × Int), map[i]? = some lic ∧ ps[i]? = some v ∧ lic.name = n ∧ v.1 > -1) ↔
      KeptName rx map text n := by
    intro n
    unfold KeptName
    constructor
    · rintro ⟨i, lic, v, h1, h2, h3, h4⟩
      have hi := (List.getElem?_eq_some_iff.mp h1).1
      rw [hv hne i hi] at h2
      cases h2
      exact ⟨i, lic, h1, h3, (kept_iff ..).mpr h4⟩
    · rintro ⟨i, lic, h1, h2, h3⟩
      have hi := (List.getElem?_eq_some_iff.mp h1).1
      exact ⟨i, lic, _, h1, hv hne i hi, h2, (kept_iff ..).mp h3⟩
  have hov : ∀ l w, overrides map ps l w name = true ↔ name = l ∧ KeptName rx map text w := by
    intro l w
    unfold overrides
    rw [Bool.and_eq_true, any_iff map ps hl, hkn, beq_iff_eq]
  rw [hout, mem_collect map ps hl, hkn]
  refine and_congr_right fun _ => ?_
  rw [← Bool.not_eq_true]
  unfold overridden
  simp only [Bool.or_eq_true, hov]
  constructor
  · intro hno g s hgs hg hk
    simp only [overridePairs, List.mem_cons, Prod.mk.injEq, List.not_mem_nil, or_false] at hgs
    rcases hgs with ⟨rfl, rfl⟩ | ⟨rfl, rfl⟩ | ⟨rfl, rfl⟩ | ⟨rfl, rfl⟩
    · exact hno (Or.inl (Or.inl (Or.inl ⟨hg, hk⟩)))
    · exact hno (Or.inl (Or.inl (Or.inr ⟨hg, hk⟩)))
    · exact hno (Or.inl (Or.inr ⟨hg, hk⟩))
    · exact hno (Or.inr ⟨hg, hk⟩)
  · intro hall hor
    rcases hor with ((h | h) | h) | h
    · exact hall _ _ (by simp [overridePairs]) h.1 h.2
    · exact hall _ _ (by simp [overridePairs]) h.1 h.2
    · exact hall _ _ (by simp [overridePairs]) h.1 h.2
    · exact hall _ _ (by simp [overridePairs]) h.1 h.2

/-- C26: a general license is never reported together with one that overrides it. -/
theorem C26_never_together (rx : Engine) (junk : Byte) (jp : Int × Int) (map : List License)
    (pls : List ParsedLanguage) (out : List String)
    (h : detectLicense rx junk jp map pls = some out) (g s : String) (hp : (g, s) ∈ overridePairs) :
    ¬ (g ∈ out ∧ s ∈ out) := by
  rintro ⟨hg, hs⟩
  by_cases hne : pls = []
  · subst hne; cases h; cases hg
  · have h1 := (C26_reported_iff rx junk jp map pls hne out h g).mp hg
    have h2 := (C26_reported_iff rx junk jp map pls hne out h s).mp hs
    exact h1.2 g s hp rfl h2.1

/-- C26: the match of a reported license lies inside the match of no other license found
in the same text. -/
theorem C26_not_contained (rx : Engine) (junk : Byte) (jp : Int × Int)
    (pls : List ParsedLanguage) (hne : pls ≠ []) (out : List String)
    (h : detectLicense rx junk jp licenseMap pls = some out) (i : Nat) (lic : License)
    (hi : licenseMap[i]? = some lic) (hout : lic.name ∈ out) :
    ∃ m, Found rx licenseMap (searchText (cstr (pls.getLast hne).comments.mem)) i m ∧
      ∀ i' m', Found rx licenseMap (searchText (cstr (pls.getLast hne).comments.mem)) i' m' →
        ¬ Inside m m' := by
  obtain ⟨⟨i2, lic2, h1, h2, h3⟩, _⟩ :=
    (C26_reported_iff rx junk jp licenseMap pls hne out h lic.name).mp hout
  have : i2 = i := by
    have l1 := List.getElem?_eq_some_iff.mp hi
    have l2 := List.getElem?_eq_some_iff.mp h1
    have hinj := (List.pairwise_iff_getElem (R := fun a b : String => a ≠ b)).mp licenseMap_nodup
    rcases Nat.lt_trichotomy i i2 with hlt | heq | hgt
    · exact (hinj i i2 (by rw [List.length_map]; exact l1.1) (by rw [List.length_map]; exact l2.1) hlt
        (by rw [List.getElem_map, List.getElem_map, l1.2, l2.2, h2])).elim
    · exact heq.symm
    · exact (hinj i2 i (by rw [List.length_map]; exact l2.1) (by rw [List.length_map]; exact l1.1) hgt
        (by rw [List.getElem_map, List.getElem_map, l2.2, l1.2, h2])).elim
  subst this
  exact h3

/-- C25, the full statement: a license found in the comments of some language, and in no
language overridden or contained, is reported. -/
def C25_full : Prop :=
  ∀ (rx : Engine) (junk : Byte) (jp : Int × Int) (pls : List ParsedLanguage) (out : List String),
    detectLicense rx junk jp licenseMap pls = some out →
    ∀ (pl : ParsedLanguage) (name : String), pl ∈ pls →
      KeptName rx licenseMap (searchText (cstr pl.comments.mem)) name →
      (∀ g s, (g, s) ∈ overridePairs → name = g → ∀ pl' ∈ pls,
        ¬ KeptName rx licenseMap (searchText (cstr pl'.comments.mem)) s) → name ∈ out

/-- C25 holds of the language that was parsed last, so in particular of every file with a
single language. Missing: the other languages, see `C25_negation`. -/
theorem C25_last_language_partial (rx : Engine) (junk : Byte) (jp : Int × Int)
    (pls : List ParsedLanguage) (hne : pls ≠ []) (out : List String)
    (h : detectLicense rx junk jp licenseMap pls = some out) (name : String)
    (hk : KeptName rx licenseMap (searchText (cstr (pls.getLast hne).comments.mem)) name)
    (hno : ∀ g s, (g, s) ∈ overridePairs → name = g →
      ¬ KeptName rx licenseMap (searchText (cstr (pls.getLast hne).comments.mem)) s) :
    name ∈ out :=
  (C26_reported_iff rx junk jp licenseMap pls hne out h name).mpr ⟨hk, hno⟩

/-- The licenses of a file are those of its last language: the languages before it have no
influence. -/
theorem C25_others_ignored (rx : Engine) (junk : Byte) (jp : Int × Int)
    (before : List ParsedLanguage) (last : ParsedLanguage) :
    detectLicense rx junk jp licenseMap (before ++ [last]) =
      detectLicense rx junk jp licenseMap [last] := by
  have hne : before ++ [last] ≠ [] := by simp
  obtain ⟨ps, e, hl, hv⟩ := languageLoop_ok rx junk licenseMap (before ++ [last])
    (List.replicate licenseMap.length jp) (List.length_replicate ..)
  obtain ⟨ps', e', hl', hv'⟩ := languageLoop_ok rx junk licenseMap [last]
    (List.replicate licenseMap.length jp) (List.length_replicate ..)
  have hps : ps = ps' := by
    apply List.ext_getElem?
    intro i
    by_cases hi : i < licenseMap.length
    · rw [hv hne i hi, hv' (by simp) i hi]
      rw [List.getLast_append_of_ne_nil _ (by simp)]
    · rw [List.getElem?_eq_none (by omega), List.getElem?_eq_none (by omega)]
  have h1 : detectLicense rx junk jp licenseMap (before ++ [last]) = some (collect licenseMap ps) := by
    rw [detect_eq _ _ _ _ _ hne, e]; rfl
  have h2 : detectLicense rx junk jp licenseMap [last] = some (collect licenseMap ps') := by
    rw [detect_eq _ _ _ _ _ (by simp), e']; rfl
  rw [h1, h2, hps]

/-- A parsed language with the given comments. -/
def plOf (name : String) (comments : Bytes) : ParsedLanguage :=
  ⟨name, comments.length, ⟨[0], 0, 0⟩, ⟨comments ++ [0], comments.length, 1⟩, 0⟩

/-- An engine that finds entry `i` of the table wherever the text begins with byte `i`
(all of the text is the match). -/
def firstByteEngine : Engine :=
  ⟨fun j text => if text.head? = some (UInt8.ofNat (j + 65)) then some (0, text.length) else none,
   fun _ _ => false⟩

/-- C25 is false: a license in the comments of the first of two languages is lost. -/
theorem C25_negation : ¬ C25_full := by
  intro hfull
  have hd : detectLicense firstByteEngine 0 (0, 0) licenseMap [plOf "html" [65], plOf "php" [10]] = some [] := by
    decide +kernel
  have hf : Found firstByteEngine licenseMap [65, 32] 0 (0, 2) :=
    ⟨⟨"academic", false⟩, by decide +kernel, by decide +kernel, by decide⟩
  have hk : KeptName firstByteEngine licenseMap
      (searchText (cstr (plOf "html" [65]).comments.mem)) "academic" := by
    refine ⟨0, ⟨"academic", false⟩, by decide +kernel, rfl, (0, 2), ?_, ?_⟩
    · have : searchText (cstr (plOf "html" [65]).comments.mem) = [65, 32] := by decide +kernel
      rw [this]; exact hf
    · have : searchText (cstr (plOf "html" [65]).comments.mem) = [65, 32] := by decide +kernel
      rw [this]
      rintro i' m' ⟨_, _, hm, _⟩ hin
      simp only [firstByteEngine] at hm
      split at hm
      · cases hm; exact hin.2.2 rfl
      · cases hm
  have := hfull firstByteEngine 0 (0, 0) _ _ hd (plOf "html" [65]) "academic" (by simp) hk (by
    intro g s hgs hg
    simp only [overridePairs, List.mem_cons, Prod.mk.injEq, List.not_mem_nil, or_false] at hgs
    rcases hgs with h | h | h | h <;> exact absurd (hg.trans h.1) (by decide))
  cases this

/-! ### A non-trivial case -/

/-- An engine that finds "gpl3_or_later" (entry 25) and "gpl" (28) apart from each other,
and "lgpl3" (entry 27) inside the first match. -/
def demoEngine : Engine :=
  ⟨fun j _ => if j = 25 then some (0, 9) else if j = 28 then some (12, 15) else
     if j = 27 then some (3, 9) else if j = 60 then some (20, 22) else none, fun _ _ => false⟩

example : detectLicense demoEngine 0 (5, 5) licenseMap [plOf "c" [65, 10, 66]] =
    some ["gpl3_or_later", (licenseMap[60]?.map License.name).getD ""] := by decide +kernel

end Ohcount.Licenses
