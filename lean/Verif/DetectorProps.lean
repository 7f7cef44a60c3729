/-
Properties of language detection: C27–C32, C50 and following.
-/
import Verif.Detector
import Verif.SourceFileProps

namespace Ohcount.Detector

open Ohcount Ohcount.Tables Ohcount.Diff

set_option maxRecDepth 20000

/-! ### Specification -/

/-- A source file as `ohcount_sourcefile_new(path)` makes it, with the given disk path,
contents and file context. -/
def source (before : Byte) (path : Bytes) (disk contents : Option Bytes) (files : Option (List Bytes)) : Input :=
  { filepath := path, parts := splitPath before path, diskpath := disk, contents, filenames := files }

/-- A byte string that can follow the last dot of a path: no dot, no separator. -/
def plain (e : Bytes) : Prop := ∀ b ∈ e, b ≠ 46 ∧ b ≠ 47 ∧ b ≠ 92

instance (e : Bytes) : Decidable (plain e) := inferInstanceAs (Decidable (∀ b ∈ e, _))

/-- The lower-case form. -/
def lower (e : Bytes) : Bytes := e.map tolower

/-- The extension is in the table. -/
def listed (e : Bytes) : Prop := ∃ v, (e, v) ∈ extensions

/-! ### Lookup -/

theorem lookup_mem {α : Type} {t : List (Bytes × α)} {k : Bytes} {v : α} (h : lookup t k = some v) :
    (k, v) ∈ t := by
  simp only [lookup, Option.map_eq_some_iff] at h
  obtain ⟨a, ha, rfl⟩ := h
  have h1 := List.mem_of_find?_eq_some ha
  have h2 := List.find?_some ha
  simp only [decide_eq_true_eq] at h2
  rw [← h2]; exact h1

theorem lookup_none {α : Type} {t : List (Bytes × α)} {k : Bytes} (h : lookup t k = none) (v : α) :
    (k, v) ∉ t := by
  intro hm
  simp only [lookup, Option.map_eq_none_iff, List.find?_eq_none, decide_eq_true_eq] at h
  exact h _ hm rfl

theorem mem_lookup {α : Type} {t : List (Bytes × α)} (hn : (t.map Prod.fst).Nodup) {k : Bytes} {v : α}
    (h : (k, v) ∈ t) : lookup t k = some v := by
  induction t with
  | nil => exact absurd h (by simp)
  | cons e t ih =>
    simp only [List.map_cons, List.nodup_cons] at hn
    by_cases he : e.1 = k
    · rcases List.mem_cons.mp h with rfl | h'
      · simp [lookup]
      · exact absurd (List.mem_map.mpr ⟨_, h', rfl⟩) (by rw [he] at hn; exact hn.1)
    · rcases List.mem_cons.mp h with rfl | h'
      · exact absurd rfl he
      · have := ih hn.2 h'
        simp only [lookup, List.find?_cons] at this ⊢
        simp only [he, decide_false]
        exact this

/-! ### C32: the tables are functions -/

theorem extensions_nodup : (extensions.map Prod.fst).Nodup := by decide +kernel
theorem filenames_nodup : (filenames.map Prod.fst).Nodup := by decide +kernel
theorem languages_nodup : (languages.map Prod.fst).Nodup := by decide +kernel

/-- C32: no key has two different values in any of the four tables, and every
disambiguation id used in the extension table has a function. (The parser table lists
one key twice, with the same value.) -/
theorem C32_functions :
    (∀ k v w, (k, v) ∈ extensions → (k, w) ∈ extensions → v = w) ∧
    (∀ k v w, (k, v) ∈ filenames → (k, w) ∈ filenames → v = w) ∧
    (∀ k v w, (k, v) ∈ languages → (k, w) ∈ languages → v = w) ∧
    (∀ k v w, (k, v) ∈ parsers → (k, w) ∈ parsers → v = w) ∧
    (∀ k id, (k, ExtVal.ambiguous id) ∈ extensions → id ∈ disambiguators) := by
  refine ⟨?_, ?_, ?_, ?_, ?_⟩
  · intro k v w h1 h2
    exact Option.some.inj ((mem_lookup extensions_nodup h1).symm.trans (mem_lookup extensions_nodup h2))
  · intro k v w h1 h2
    exact Option.some.inj ((mem_lookup filenames_nodup h1).symm.trans (mem_lookup filenames_nodup h2))
  · intro k v w h1 h2
    exact Option.some.inj ((mem_lookup languages_nodup h1).symm.trans (mem_lookup languages_nodup h2))
  · have : ∀ a ∈ parsers, ∀ b ∈ parsers, a.1 = b.1 → a.2 = b.2 := by decide +kernel
    intro k v w h1 h2
    exact this _ h1 _ h2 rfl
  · have : ∀ a ∈ extensions, (match a.2 with | .ambiguous id => disambiguators.contains id | _ => true) = true := by
      decide +kernel
    intro k id h
    have := this _ h
    exact List.contains_iff_mem.mp this

example : (bs "h", ExtVal.ambiguous "h") ∈ extensions := by decide +kernel
example : (bs "h", ExtVal.lang "c") ∉ extensions := by decide +kernel

/-! ### The extension of a path -/

theorem isSepOrDot_false {b : Byte} (h : b ≠ 46 ∧ b ≠ 47 ∧ b ≠ 92) : isSepOrDot b = false := by
  simp [isSepOrDot, isSep, chDot, chSlash, chBackslash, h.1, h.2.1, h.2.2]

theorem scanBack_ext (stem e : Bytes) (he : plain e) :
    ∀ k, k ≤ e.length → scanBack isSepOrDot (stem ++ 46 :: e) (stem.length + 1 + k) = stem.length + 1 := by
  intro k
  induction k with
  | zero =>
    intro _
    show scanBack isSepOrDot (stem ++ 46 :: e) (stem.length + 1) = _
    unfold scanBack
    simp [isSepOrDot, chDot]
  | succ k ih =>
    intro hk
    show scanBack isSepOrDot (stem ++ 46 :: e) (stem.length + 1 + k + 1) = _
    unfold scanBack
    have hg : (stem ++ 46 :: e)[stem.length + 1 + k]? = some (e[k]'(by omega)) := by
      rw [List.getElem?_append_right (by omega)]
      have : stem.length + 1 + k - stem.length = k + 1 := by omega
      rw [this, List.getElem?_cons_succ, List.getElem?_eq_getElem]
    rw [hg]
    simp only [isSepOrDot_false (he _ (List.getElem_mem _))]
    exact ih (by omega)

/-- The extension of `stem.e` is `e`. -/
theorem ext_source (before : Byte) (stem e : Bytes) (he : plain e) (d c f) :
    (source before (stem ++ 46 :: e) d c f).ext = e := by
  have hs := scanBack_ext stem e he e.length (Nat.le_refl _)
  have hl : (stem ++ 46 :: e).length = stem.length + 1 + e.length := by
    simp; omega
  show (stem ++ 46 :: e).drop (splitPath before (stem ++ 46 :: e)).ext = e
  simp only [splitPath, hl, hs]
  rw [if_neg (by omega : ¬ stem.length + 1 = 0)]
  have : ((stem ++ 46 :: e)[stem.length + 1 - 1]?).getD 0 = chDot := by
    rw [Nat.add_sub_cancel, List.getElem?_append_right (Nat.le_refl _)]
    simp [chDot]
  rw [this, if_pos rfl]
  rw [show stem.length + 1 = (stem ++ [46]).length by simp]
  rw [show stem ++ 46 :: e = (stem ++ [46]) ++ e by simp]
  exact List.drop_left

theorem fromExt_mem {e : Bytes} {v : ExtVal} (h : (e, v) ∈ extensions) : fromExt e = some v :=
  mem_lookup extensions_nodup h

theorem candidate_of_ext (o : Oracles) (st : Stack) (i : Input) {v : ExtVal} (h : byExt i.ext = some v) :
    candidate o st i = some (.ok (some v)) := by
  simp only [candidate, h]

/-! ### C27: unambiguous extensions -/

/-- C27: with a listed unambiguous extension the language is the listed one, whatever the
rest of the path, the disk path, the contents, the file context, libmagic, the
machine. -/
theorem C27_unambiguous (o : Oracles) (st : Stack) (before : Byte) (stem e : Bytes) (l : String)
    (disk contents : Option Bytes) (files : Option (List Bytes))
    (he : plain e) (hl : (e, ExtVal.lang l) ∈ extensions) :
    detect o st before (source before (stem ++ bs "." ++ e) disk contents files) = some (some l) := by
  rw [show stem ++ bs "." ++ e = stem ++ 46 :: e by simp [bs]]
  have hb : byExt (source before (stem ++ 46 :: e) disk contents files).ext = some (.lang l) := by
    rw [ext_source before stem e he]; simp only [byExt, fromExt_mem hl]
  rw [detect, detectN, candidate_of_ext o st _ hb]
  rfl

/-- C27, binary extensions: no language. -/
theorem C27_binary (o : Oracles) (st : Stack) (before : Byte) (stem e : Bytes)
    (disk contents : Option Bytes) (files : Option (List Bytes))
    (he : plain e) (hl : (e, ExtVal.binary) ∈ extensions) :
    detect o st before (source before (stem ++ bs "." ++ e) disk contents files) = some none := by
  rw [show stem ++ bs "." ++ e = stem ++ 46 :: e by simp [bs]]
  have hb : byExt (source before (stem ++ 46 :: e) disk contents files).ext = some .binary := by
    rw [ext_source before stem e he]; simp only [byExt, fromExt_mem hl]
  rw [detect, detectN, candidate_of_ext o st _ hb]
  rfl

/-- Every key of the table can be an extension, so that C27 speaks about all of them. -/
theorem C27_all_plain : ∀ x ∈ extensions, plain x.1 := by decide +kernel

example : plain (bs "py") ∧ (bs "py", ExtVal.lang "python") ∈ extensions := by decide +kernel
example : plain (bs "png") ∧ (bs "png", ExtVal.binary) ∈ extensions := by decide +kernel

/-! ### C28: upper-case extensions -/

theorem plain_lower {e : Bytes} (h : plain e) : plain (lower e) := by
  intro b hb
  simp only [lower, List.mem_map] at hb
  obtain ⟨c, hc, rfl⟩ := hb
  have := h c hc
  simp only [tolower]
  split
  · rename_i h1
    have h2 := UInt8.le_iff_toNat_le.mp h1.1
    have h3 := UInt8.le_iff_toNat_le.mp h1.2
    have h4 : (c + 32).toNat = c.toNat + 32 := by
      rw [UInt8.toNat_add]
      have : (65 : UInt8).toNat = 65 := rfl
      have : (90 : UInt8).toNat = 90 := rfl
      have : (32 : UInt8).toNat = 32 := rfl
      omega
    have e1 : (65 : UInt8).toNat = 65 := rfl
    have e2 : (90 : UInt8).toNat = 90 := rfl
    have e3 : (46 : UInt8).toNat = 46 := rfl
    have e4 : (47 : UInt8).toNat = 47 := rfl
    have e5 : (92 : UInt8).toNat = 92 := rfl
    refine ⟨?_, ?_, ?_⟩ <;> intro h5 <;> rw [h5] at h4 <;> omega
  · exact this

/-- A statement about a byte is 256 statements. -/
theorem byteAll (P : Byte → Prop) (h : ∀ n : Fin 256, P (UInt8.ofFin n)) (b : Byte) : P b := by
  have := h b.toFin
  simpa using this

theorem tolower_idem (b : Byte) : tolower (tolower b) = tolower b :=
  byteAll (fun b => tolower (tolower b) = tolower b) (by decide +kernel) b

theorem lower_lower (e : Bytes) : lower (lower e) = lower e := by
  simp only [lower, List.map_map]
  exact List.map_congr_left fun b _ => tolower_idem b

theorem takeWhile_dot (stem e : Bytes) :
    ((stem ++ 46 :: e).takeWhile fun c => c != 46) = (stem.takeWhile fun c => c != 46) ∧
    (stem.takeWhile fun c => c != 46).length ≤ stem.length := by
  constructor
  · induction stem with
    | nil => simp
    | cons b t ih =>
      simp only [List.cons_append, List.takeWhile_cons]
      split
      · rw [ih]
      · rfl
  · exact (List.takeWhile_sublist _).length_le

/-- The disambiguators, except for `h` and `in`, look at the contents and the file context
only. -/
theorem disambiguate_congr (o : Oracles) (st : Stack) (before : Byte) (n : Input → Option (Option String)) (id : String) (i j : Input)
    (h : id ∈ disambiguators) (h1 : id ≠ "h") (h2 : id ≠ "in")
    (hc : i.contents = j.contents) (hf : i.filenames = j.filenames) :
    disambiguate o st before n id i = disambiguate o st before n id j := by
  have ht : i.text = j.text := by simp only [Input.text, hc]
  simp only [disambiguators, List.mem_cons, List.not_mem_nil, or_false] at h
  rcases h with rfl | rfl | rfl | rfl | rfl | rfl | rfl | rfl | rfl | rfl | rfl | rfl | rfl | rfl |
    rfl | rfl | rfl | rfl | rfl | rfl <;>
  first
  | exact absurd rfl h1
  | exact absurd rfl h2
  | simp only [disambiguate, b, basic, cs, fortran, fs, m, pl, pp, inc, r, rs, smalltalk, ht, hc, hf]

/-- C28: an extension that is not listed as it is written, but whose lower-case form is, is
treated in every respect like its lower-case form. -/
theorem C28_case (o : Oracles) (st : Stack) (before : Byte) (stem e : Bytes)
    (disk contents : Option Bytes) (files : Option (List Bytes))
    (he : plain e) (hn : ¬ listed e) (hl : listed (lower e)) :
    detect o st before (source before (stem ++ bs "." ++ e) disk contents files) =
    detect o st before (source before (stem ++ bs "." ++ lower e) disk contents files) := by
  have hdot : ∀ e : Bytes, stem ++ bs "." ++ e = stem ++ 46 :: e := by intro e; simp [bs]
  rw [hdot, hdot]
  obtain ⟨v, hv⟩ := hl
  have h0 : fromExt e = none := by
    cases hc : fromExt e with
    | none => rfl
    | some w => exact absurd ⟨w, lookup_mem hc⟩ hn
  have h1 : byExt (source before (stem ++ 46 :: e) disk contents files).ext = some v := by
    rw [ext_source before stem e he]
    simp only [byExt, h0]; exact fromExt_mem hv
  have h2 : byExt (source before (stem ++ 46 :: lower e) disk contents files).ext = some v := by
    rw [ext_source before stem _ (plain_lower he)]
    simp only [byExt, fromExt_mem hv]
  have hlen : (lower e).length = e.length := by simp [lower]
  have hfp : ∀ e : Bytes, (source before (stem ++ 46 :: e) disk contents files).filepath = stem ++ 46 :: e :=
    fun _ => rfl
  simp only [detect, detectN, candidate_of_ext o st _ h1, candidate_of_ext o st _ h2, Option.bind_some]
  simp only [hfp, List.length_append, List.length_cons, hlen]
  cases v with
  | lang l => rfl
  | binary => rfl
  | ambiguous id =>
    dsimp only
    by_cases hh : id = "h"
    · subst hh
      exfalso
      have key : ∀ a ∈ extensions, a.2 = .ambiguous "h" → a.1 = [104] := by decide +kernel
      have hk : lower e = [104] := key _ hv rfl
      have : ∃ b, e = [b] ∧ tolower b = 104 := by
        cases e with
        | nil => exact absurd hk (by simp [lower])
        | cons b t =>
          simp only [lower, List.map_cons, List.cons.injEq, List.map_eq_nil_iff] at hk
          exact ⟨b, by rw [hk.2], hk.1⟩
      obtain ⟨b, rfl, hb⟩ := this
      have hbb : b = 104 ∨ b = 72 :=
        byteAll (fun b => tolower b = 104 → b = 104 ∨ b = 72) (by decide +kernel) b hb
      rcases hbb with rfl | rfl
      · exact hn ⟨.ambiguous "h", by decide +kernel⟩
      · exact hn ⟨.lang "cpp", by decide +kernel⟩
    · by_cases hi : id = "in"
      · subst hi
        have key : ∀ a ∈ extensions, a.2 = .ambiguous "in" → a.1.length = 2 := by decide +kernel
        have hk : (lower e).length = 2 := key _ hv rfl
        have hk2 : e.length = 2 := by omega
        have t1 := takeWhile_dot stem e
        have t2 := takeWhile_dot stem (lower e)
        simp only [disambiguate, hfp, t1.1, t2.1, List.length_append, List.length_cons, hk, hk2]
        have e1 : ∀ x : Bytes, (stem ++ 46 :: x).take (stem.length + (2 + 1) - 3) = stem := by
          intro x
          rw [show stem.length + (2 + 1) - 3 = stem.length by omega]
          exact List.take_left
        rw [e1, e1]
        rfl
      · exact disambiguate_congr o st before _ id _ _ ((C32_functions).2.2.2.2 _ _ hv) hh hi rfl rfl

example : plain (bs "PAS") ∧ lower (bs "PAS") = bs "pas" := by decide +kernel
example : ¬ listed (bs "PaS") := by
  rintro ⟨v, hv⟩
  have : ∀ a ∈ extensions, a.1 ≠ bs "PaS" := by decide +kernel
  exact this _ hv rfl
example : listed (bs "pas") := ⟨_, lookup_mem (v := .lang "pascal") (by decide +kernel)⟩

/-! ### C29, C30: what detection can return -/

/-- An identifier, or `BINARY`. -/
def good (l : String) : Bool := identifiers.contains l || l == BINARY

/-- No language, or a good one. -/
def gok : Option String → Bool
  | none => true
  | some l => good l

/-- No language, or an identifier. -/
def iok : Option String → Bool
  | none => true
  | some l => identifiers.contains l

theorem gok_of_iok {x : Option String} (h : iok x = true) : gok x = true := by
  cases x with
  | none => rfl
  | some l => simp only [gok, good, show identifiers.contains l = true from h, Bool.true_or]

theorem gok_dat (p : Bytes) : gok (dat p) = true := by
  fun_induction dat p <;> first | assumption | rfl | decide +kernel

theorem iok_asx (p : Bytes) : iok (asx p) = true := by
  fun_induction asx p <;> first | assumption | rfl | decide +kernel

theorem iok_def (p : Bytes) : iok (deff p) = true := by
  fun_induction deff p <;> first | assumption | rfl | decide +kernel

theorem iok_mod (p : Bytes) : iok (mod p) = true := by
  fun_induction mod p <;> first | assumption | rfl | decide +kernel

theorem iok_pro (p : Bytes) : iok (pro p) = true := by
  fun_induction pro p <;> first | assumption | rfl | decide +kernel

theorem iok_rLoop (p : Bytes) : iok (rLoop p) = true := by
  fun_induction rLoop p <;> first | assumption | rfl | decide +kernel

theorem iok_rsLoop (p : Bytes) : iok (rsLoop p) = true := by
  fun_induction rsLoop p <;> first | assumption | rfl | decide +kernel

theorem lineLoop_error {σ : Type} (Q : Option String → Prop) (st : Stack)
    (f : σ → Bytes → Option (Except (Option String) σ))
    (hf : ∀ s line e, f s line = some (.error e) → Q e) :
    ∀ (n : Nat) (p : Bytes) (s : σ) (e : Option String), lineLoop st f n p s = some (.error e) → Q e := by
  intro n
  induction n with
  | zero => intro p s e h; exact absurd h (by simp [lineLoop])
  | succ n ih =>
    intro p s e h
    unfold lineLoop at h
    split at h
    · exact absurd h (by simp)
    · obtain ⟨line, _, h⟩ := Option.bind_eq_some_iff.mp h
      obtain ⟨r, hr, h⟩ := Option.bind_eq_some_iff.mp h
      cases r with
      | error e' =>
        simp only [Option.some.injEq, Except.error.injEq] at h
        exact h ▸ hf _ _ _ hr
      | ok s' => exact ih _ _ _ h

theorem iok_aspx (st : Stack) (p : Bytes) (r : Option String) (h : aspx st p = some r) : iok r = true := by
  unfold aspx at h
  split at h
  · cases h; decide +kernel
  · split at h
    · cases h; decide +kernel
    · split at h
      · cases h; decide +kernel
      · dsimp only at h
        split at h
        · split at h
          · cases h; decide +kernel
          · cases h; decide +kernel
        · exact absurd h (by simp)

theorem iok_basic (st : Stack) (i : Input) (r : Option String) (h : basic st i = some r) : iok r = true := by
  simp only [basic, Option.map_eq_some_iff] at h
  obtain ⟨a, ha, h⟩ := h
  cases a with
  | error e =>
    dsimp only at h
    subst h
    refine lineLoop_error (fun e => iok e = true) st _ ?_ _ _ _ _ ha
    intro s line e he
    simp only [Option.some.injEq] at he
    split at he
    · cases he; decide +kernel
    · cases he
  | ok _ =>
    dsimp only at h
    split at h
    · cases h; decide +kernel
    · cases h; decide +kernel

theorem iok_b (st : Stack) (i : Input) (r : Option String) (h : b st i = some r) : iok r = true := by
  simp only [b] at h
  obtain ⟨l, _, h⟩ := Option.bind_eq_some_iff.mp h
  split at h
  · cases h; decide +kernel
  · exact iok_basic st i r h

theorem iok_h (st : Stack) (i : Input) (r : Option String) (h : h st i = some r) : iok r = true := by
  simp only [Detector.h] at h
  obtain ⟨objc, _, h⟩ := Option.bind_eq_some_iff.mp h
  split at h
  · cases h; decide +kernel
  · simp only [Option.map_eq_some_iff] at h
    obtain ⟨a, ha, h⟩ := h
    cases a with
    | error e =>
      dsimp only at h
      subst h
      refine lineLoop_error (fun e => iok e = true) st _ ?_ _ _ _ _ ha
      intro s line e he
      obtain ⟨x, _, he⟩ := Option.bind_eq_some_iff.mp he
      split at he
      · cases he; decide +kernel
      · obtain ⟨w, _, he⟩ := Option.bind_eq_some_iff.mp he
        simp only [Option.some.injEq] at he
        split at he
        · cases he; decide +kernel
        · cases he
    | ok _ => dsimp only at h; cases h; decide +kernel

theorem iok_m (st : Stack) (i : Input) (r : Option String) (h : m st i = some r) : iok r = true := by
  simp only [m, Option.map_eq_some_iff] at h
  obtain ⟨a, ha, h⟩ := h
  cases a with
  | error e =>
    dsimp only at h
    subst h
    refine lineLoop_error (fun e => iok e = true) st _ ?_ _ _ _ _ ha
    intro s line e he
    simp only [Option.map_eq_some_iff] at he
    obtain ⟨x, _, hx⟩ := he
    cases hx
  | ok s =>
    dsimp only at h
    split at h
    · cases h; decide +kernel
    · split at h
      · cases h; decide +kernel
      · split at h
        · cases h; decide +kernel
        · split at h
          · cases h; decide +kernel
          · cases h; decide +kernel

theorem iok_st (st : Stack) (i : Input) (r : Option String) (h : smalltalk st i = some r) : iok r = true := by
  simp only [smalltalk, Option.map_eq_some_iff] at h
  obtain ⟨a, ha, h⟩ := h
  cases a with
  | error e =>
    dsimp only at h
    subst h
    refine lineLoop_error (fun e => iok e = true) st _ ?_ _ _ _ _ ha
    intro s line e he
    simp only [Option.map_eq_some_iff] at he
    obtain ⟨x, _, hx⟩ := he
    cases x with
    | error _ => cases hx; decide +kernel
    | ok _ => cases hx
  | ok s => cases h; rfl

theorem iok_fortran (i : Input) (r : Option String) (h : fortran i = some r) : iok r = true := by
  simp only [fortran, Option.map_eq_some_iff] at h
  obtain ⟨a, _, h⟩ := h
  split at h
  · cases h; decide +kernel
  · cases h; decide +kernel

theorem iok_fs (i : Input) (r : Option String) (h : fs i = some r) : iok r = true := by
  simp only [fs] at h
  split at h
  · cases h; rfl
  · simp only [Option.map_eq_some_iff] at h
    obtain ⟨a, _, h⟩ := h
    split at h
    · cases h; decide +kernel
    · split at h
      · cases h; decide +kernel
      · cases h; rfl

theorem iok_cs (i : Input) : iok (cs i) = true := by
  simp only [cs]; repeat' split
  all_goals decide +kernel

theorem iok_inc (i : Input) : iok (inc i) = true := by
  simp only [inc]; repeat' split
  all_goals decide +kernel

theorem iok_pp (o : Oracles) (i : Input) : iok (pp o i) = true := by
  simp only [pp]; repeat' split
  all_goals decide +kernel

theorem iok_pl (o : Oracles) (i : Input) : iok (pl o i) = true := by
  simp only [pl]; repeat' split
  all_goals decide +kernel

theorem iok_r (i : Input) : iok (r i) = true := by
  simp only [r]; split
  · decide +kernel
  · exact iok_rLoop _

theorem iok_rs (i : Input) : iok (rs i) = true := by
  simp only [rs]; split
  · decide +kernel
  · split
    · rfl
    · exact iok_rsLoop _

theorem good_name {k : Bytes} {n : String} (h : fromName k = some n) : good n = true := by
  have : ∀ a ∈ languages, good a.2 = true := by decide +kernel
  exact this _ (lookup_mem h)

theorem good_filename {k : Bytes} {n : String} (h : fromFilename k = some n) : good n = true := by
  have : ∀ a ∈ filenames, good a.2 = true := by decide +kernel
  exact this _ (lookup_mem h)

theorem good_ext {k : Bytes} {n : String} (h : fromExt k = some (.lang n)) : good n = true := by
  have : ∀ a ∈ extensions, (match a.2 with | .lang n => good n | _ => true) = true := by decide +kernel
  exact this _ (lookup_mem h)

theorem ext_id {k : Bytes} {id : String} (h : fromExt k = some (.ambiguous id)) : id ∈ disambiguators :=
  C32_functions.2.2.2.2 _ _ (lookup_mem h)

/-- A candidate that is not nonsense. -/
def candOk : Except String (Option ExtVal) → Prop
  | .error l => good l = true
  | .ok (some (.lang l)) => good l = true
  | .ok (some (.ambiguous id)) => id ∈ disambiguators
  | .ok _ => True

theorem candOk_ext {k : Bytes} {v : ExtVal} (h : fromExt k = some v) : candOk (.ok (some v)) := by
  cases v with
  | lang n => exact good_ext h
  | binary => trivial
  | ambiguous id => exact ext_id h

theorem candOk_mode (w : Bytes) : candOk (fromMode w) := by
  unfold fromMode
  split
  · show good "c" = true; decide +kernel
  · split
    · rename_i h; exact good_name h
    · split
      · rename_i h; exact candOk_ext h
      · split
        · rename_i h; exact good_name h
        · cases h : fromExt (w.map tolower) with
          | none => trivial
          | some v => exact candOk_ext h

theorem good_magicParse (t : Bytes) (l : String) (h : magicParse t = some (some l)) : good l = true := by
  unfold magicParse at h
  dsimp only at h
  split at h
  · rename_i n hn
    cases h
    split at hn
    · split at hn
      · exact good_name hn
      · cases hn
    · cases hn
  · split at h
    · simp only [Option.map_eq_some_iff] at h
      obtain ⟨a, _, h⟩ := h
      exact good_name h
    · simp only [Option.some.injEq] at h
      split at h
      · cases h; decide +kernel
      · cases h

theorem candOk_candidate (o : Oracles) (st : Stack) (i : Input) (r) (h : candidate o st i = some r) :
    candOk r := by
  unfold candidate at h
  split at h
  · rename_i v hv
    cases h
    unfold byExt at hv
    split at hv
    · rename_i w hw
      cases hv
      exact candOk_ext hw
    · exact candOk_ext hv
  · obtain ⟨x, hx, h⟩ := Option.bind_eq_some_iff.mp h
    have hxo : candOk x := by
      unfold modeline at hx
      obtain ⟨mem, _, hx⟩ := Option.bind_eq_some_iff.mp hx
      split at hx
      · cases hx; trivial
      · dsimp only at hx
        simp only [Option.map_eq_some_iff] at hx
        obtain ⟨k, _, hx⟩ := hx
        subst hx
        exact candOk_mode _
    split at h
    · cases h; exact hxo
    · cases h; exact hxo
    · split at h
      · rename_i hn; cases h; exact good_filename hn
      · simp only [Option.map_eq_some_iff] at h
        obtain ⟨y, hy, h⟩ := h
        subst h
        cases y with
        | none => trivial
        | some l =>
          show good l = true
          unfold detectMagic at hy
          split at hy
          · exact good_magicParse _ _ hy
          · split at hy
            · cases hy
            · exact good_magicParse _ _ hy

theorem iok_disambiguate (o : Oracles) (st : Stack) (before : Byte)
    (rec : Input → Option (Option String)) (id : String) (i : Input)
    (hid : id ∈ disambiguators) (hd : id ≠ "dat") (hin : id ≠ "in")
    (x : Option String) (h : disambiguate o st before rec id i = some x) : iok x = true := by
  simp only [disambiguators, List.mem_cons, List.not_mem_nil, or_false] at hid
  rcases hid with rfl | rfl | rfl | rfl | rfl | rfl | rfl | rfl | rfl | rfl | rfl | rfl | rfl | rfl |
    rfl | rfl | rfl | rfl | rfl | rfl <;>
  first
  | exact absurd rfl hin
  | exact absurd rfl hd
  | simp only [disambiguate] at h
  all_goals first
  | exact iok_aspx _ _ _ h
  | exact iok_b _ _ _ h
  | exact iok_basic _ _ _ h
  | exact iok_fortran _ _ h
  | exact iok_fs _ _ h
  | exact iok_h _ _ _ h
  | exact iok_m _ _ _ h
  | exact iok_st _ _ _ h
  | (cases h
     first
     | exact iok_asx _ | exact iok_cs _ | exact iok_def _ | exact iok_inc _
     | exact iok_mod _ | exact iok_pl _ _ | exact iok_pp _ _ | exact iok_pro _ | exact iok_r _ | exact iok_rs _)

theorem gok_disambiguate (o : Oracles) (st : Stack) (before : Byte)
    (rec : Input → Option (Option String)) (id : String) (i : Input)
    (hid : id ∈ disambiguators)
    (ih : ∀ j x, rec j = some x → gok x = true)
    (x : Option String) (h : disambiguate o st before rec id i = some x) : gok x = true := by
  by_cases hin : id = "in"
  · subst hin
    simp only [disambiguate] at h
    split at h
    · exact absurd h (by simp)
    · split at h
      · split at h
        · split at h
          · cases h; rfl
          · exact ih _ _ h
        · exact absurd h (by simp)
      · cases h; rfl
  by_cases hd : id = "dat"
  · subst hd
    simp only [disambiguate] at h
    cases h
    exact gok_dat _
  · exact gok_of_iok (iok_disambiguate o st before rec id i hid hd hin x h)

theorem gok_detectN (o : Oracles) (st : Stack) (before : Byte) :
    ∀ (n : Nat) (i : Input) (x : Option String), detectN o st before n i = some x → gok x = true := by
  intro n
  induction n with
  | zero => intro i x h; cases h
  | succ n ih =>
    intro i x h
    rw [detectN] at h
    obtain ⟨c, hc, h⟩ := Option.bind_eq_some_iff.mp h
    have hk := candOk_candidate o st i c hc
    split at h
    · cases h; exact hk
    · cases h; rfl
    · cases h; exact hk
    · cases h; rfl
    · exact gok_disambiguate o st before _ _ i hk ih _ h

/-- C29, the full claim: a detected language is in the language list and accepted by
`ohcount_sourcefile_set_language`. -/
def C29_full : Prop :=
  ∀ (o : Oracles) (st : Stack) (before : Byte) (i : Input) (l : String),
    detect o st before i = some (some l) → l ∈ identifiers ∧ (fromName (bs l)).isSome = true

/-- Oracles that never find anything. -/
def mute : Oracles := ⟨fun _ => [], fun _ => [], fun _ => false, fun _ => false, fun _ => false⟩

/-- C29 is false: a `.dat` file that is not AMPL gets the internal marker for binary files as
its language, and CoffeeScript and TeX `.dtx` files get names that
`ohcount_sourcefile_set_language` does not know. -/
theorem C29_negation :
    detect mute .strict 0 (source 0 (bs "a.dat") none (some (bs "x = 1")) none) = some (some "\x01") ∧
    "\x01" ∉ identifiers ∧
    detect mute .strict 0 (source 0 (bs "a.coffee") none none none) = some (some "coffeescript") ∧
    fromName (bs "coffeescript") = none ∧
    detect mute .strict 0 (source 0 (bs "a.dtx") none none none) = some (some "tex_dtx") ∧
    fromName (bs "tex_dtx") = none ∧ ¬ C29_full := by
  have h1 : detect mute .strict 0 (source 0 (bs "a.dat") none (some (bs "x = 1")) none) =
      some (some "\x01") := by decide +kernel
  have h2 : "\x01" ∉ identifiers := by decide +kernel
  exact ⟨h1, h2, by decide +kernel, by decide +kernel, by decide +kernel, by decide +kernel,
    fun h => h2 (h _ _ _ _ _ h1).1⟩

/-- C29, what holds: a detected language is one of the identifiers or the marker for
binary files, and every other name than the marker and the two above is accepted by
`ohcount_sourcefile_set_language` (which keeps the same name). -/
theorem C29_known_partial (o : Oracles) (st : Stack) (before : Byte) (i : Input) (l : String)
    (h : detect o st before i = some (some l)) :
    (l ∈ identifiers ∨ l = "\x01") ∧
    (l = "\x01" ∨ l = "coffeescript" ∨ l = "tex_dtx" ∨ fromName (bs l) = some l) := by
  have hg : good l = true := gok_detectN o st before _ i _ h
  have hi : l ∈ identifiers ∨ l = "\x01" := by
    simp only [good, Bool.or_eq_true, beq_iff_eq, List.contains_iff_mem] at hg
    exact hg
  refine ⟨hi, ?_⟩
  rcases hi with hi | hi
  · have : ∀ l ∈ identifiers, l = "coffeescript" ∨ l = "tex_dtx" ∨ fromName (bs l) = some l := by
      decide +kernel
    exact Or.inr (this l hi)
  · exact Or.inl hi

theorem noMarker (o : Oracles) (st : Stack) (before : Byte) (n : Input → Option (Option String)) (id : String) (i : Input)
    (hid : id ∈ disambiguators) (h1 : id ≠ "dat") (h2 : id ≠ "in") :
    disambiguate o st before n id i ≠ some (some "\x01") := by
  intro h
  have := iok_disambiguate o st before n id i hid h1 h2 _ h
  exact absurd this (by decide +kernel)

/-- C29: the marker comes from the `.dat` disambiguator only. For a listed extension other
than one handled there or by `.in` files, the language is an identifier. -/
theorem C29_listed_partial (o : Oracles) (st : Stack) (before : Byte) (i : Input) (l : String) (v : ExtVal)
    (hv : byExt i.ext = some v) (h1 : v ≠ .ambiguous "dat") (h2 : v ≠ .ambiguous "in")
    (h : detect o st before i = some (some l)) : l ∈ identifiers := by
  rcases (C29_known_partial o st before i l h).1 with hi | rfl
  · exact hi
  · exfalso
    rw [detect, detectN, candidate_of_ext o st _ hv] at h
    simp only [Option.bind_some] at h
    have hx : ∃ k, fromExt k = some v := by
      unfold byExt at hv
      split at hv
      · rename_i w hw; cases hv; exact ⟨_, hw⟩
      · exact ⟨_, hv⟩
    obtain ⟨k, hk⟩ := hx
    cases v with
    | binary => cases h
    | lang n =>
      have : ∀ a ∈ extensions, a.2 ≠ .lang "\x01" := by decide +kernel
      cases h
      exact this _ (lookup_mem hk) rfl
    | ambiguous id =>
      dsimp only at h
      exact noMarker o st before _ id i (ext_id hk) (fun e => h1 (by rw [e])) (fun e => h2 (by rw [e])) h


/-- C30: whatever is detected, a parser exists for it, except for the marker for binary
files. -/
theorem C30_parser (o : Oracles) (st : Stack) (before : Byte) (i : Input) (l : String)
    (h : detect o st before i = some (some l)) (hl : l ≠ "\x01") :
    ∃ f, (bs l, f) ∈ parsers := by
  rcases (C29_known_partial o st before i l h).1 with hi | hi
  · have : ∀ l ∈ identifiers, (lookup parsers (bs l)).isSome = true := by decide +kernel
    obtain ⟨f, hf⟩ := Option.isSome_iff_exists.mp (this l hi)
    exact ⟨f, lookup_mem hf⟩
  · exact absurd hi hl

end Ohcount.Detector
