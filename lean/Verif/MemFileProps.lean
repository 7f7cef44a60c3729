import Verif.MemFileHistory
import Verif.EmbedPages
import Verif.Robust

/-!
C74, C75: histories of calls on source files and lists of source files, for the library as a whole.
-/

namespace Ohcount.Mem
open Ohcount.Ragel

/-! ### The library -/

theorem parseText_nil (lang : String) : parseText lang [] = [] := by
  unfold parseText
  split
  · rename_i rs h
    refine List.eq_nil_iff_forall_not_mem.mpr fun r hr => ?_
    have := C33_parse lang {} [] rs h r hr
    simp only [List.length_nil] at this
    omega
  · split
    · rename_i P hP
      have hn : P.named {} [] = [] := by unfold EParser.named; rw [reports_nil]; rfl
      have hu : (P.final P.multi {} []).d.ub = false := by
        unfold EParser.final eexec
        have : P.multi.run [] (efuel ([] : List Byte).length) (einit P.line {}) = einit P.line {} := Multi.run_stopped (by
          unfold Multi.step einit
          simp) _
        rw [this]
        rfl
      unfold EParser.callbacks
      rw [hn, hu]
      rfl
    · rfl

theorem library_ok (mc : Host) : EnvOk (library mc) where
  sees s disk := by
    have e : ((seen s).loadContents disk).contents = (s.loadContents disk).contents := by
      unfold SourceFile.loadContents seen
      dsimp only
      cases hc : s.contents with
      | some _ => exact hc.symm
      | none => cases h : disk (s.diskpath.getD s.filepath) with
        | none => simp_all
        | some b => cases b <;> simp_all
    unfold library
    dsimp only
    rw [e]
    rfl
  null lang n r h := by
    have e : (library mc).parse lang none n = [] := by
      show parseText lang (([] : Bytes).take n.toNat) = []
      rw [List.take_nil, parseText_nil]
    rw [e] at h
    cases h

/-! ### Blocks -/

theorem Blocks.both {P Q : Asn} {n k : Nat} (hP : ∀ h, P h → Blocks n h) (hQ : ∀ h, Q h → Blocks k h) : ∀ h, (P ⋆ Q) h → Blocks (n + k) h :=
  fun h e => Blocks.star h (star_mono hP hQ h e)

theorem Blocks.fact {φ : Prop} : ∀ h, Mem.fact φ h → Blocks 0 h := fun h e => Blocks.emp h e.1

theorem Blocks.optText {p : Ptr} : ∀ {c : Option Bytes} (h : Mem), Mem.optText p c h → Blocks (if c.isSome then 1 else 0) h
  | none, h, e => Blocks.fact h e
  | some _, h, e => Blocks.cell h e

theorem Blocks.lst' {V : Type} {E : Entry V} {p : Ptr} {vs : List V} (h : Mem) (e : Lst E p vs h) : Blocks (listSize vs.length) h := by
  have := Blocks.lst h e
  cases vs with
  | nil => exact this
  | cons v vs => exact this

theorem Blocks.optLst {V : Type} {E : Entry V} {p : Ptr} : ∀ {l : Option (List V)} (h : Mem), Mem.optLst E p l h → Blocks (match l with | some l => listSize l.length | none => 0) h
  | none, h, e => Blocks.fact h e
  | some _, h, e => Blocks.lst' h e

theorem Blocks.optLics {p : Ptr} : ∀ {l : Option (List String)} (h : Mem), Mem.optLics p l h → Blocks (match l with | some l => spineSize l.length | none => 0) h
  | none, h, e => Blocks.fact h e
  | some l, h, ⟨xs, e⟩ => by
    obtain ⟨_, e⟩ := fact_star.mp e
    show Blocks (spineSize l.length) h
    rw [e.length]
    exact Blocks.spine h e

theorem Blocks.file {p : Ptr} {s : SourceFile} (h : Mem) (e : File p s h) : Blocks (fileSizeOf s) h := by
  obtain ⟨k, e⟩ := e
  have := Blocks.both Blocks.cell (Blocks.both Blocks.cell (Blocks.both Blocks.optText (Blocks.both Blocks.optText (Blocks.both Blocks.optLst
    (Blocks.both Blocks.optLics Blocks.optLst))))) h e
  have e : ∀ a b c d f : Nat, 1 + (1 + (a + (b + (c + (d + f))))) = 2 + a + b + c + d + f := fun a b c d f => by omega
  rw [e] at this
  unfold fileSizeOf
  revert this
  cases s.parsed <;> cases s.licenses <;> cases s.locList <;> exact id

theorem Blocks.filesAt : ∀ {xs : List (Ptr × Ptr)} {ss : List SourceFile} (h : Mem), FilesAt xs ss h → Blocks (ss.map fileSizeOf).sum h
  | [], [], h, e => Blocks.emp h e
  | _ :: _, _ :: _, h, e => by
    rw [List.map_cons, List.sum_cons]
    exact Blocks.both Blocks.file Blocks.filesAt h e
  | [], _ :: _, _, e => e.elim
  | _ :: _, [], _, e => e.elim

theorem Blocks.object {p : Ptr} : ∀ {o : Option FObj} (h : Mem), Object p o h → Blocks (match o with | some o => o.size | none => 0) h
  | none, h, e => Blocks.emp h e
  | some (.file _), h, e => Blocks.file h e
  | some (.locs _), h, e => Blocks.lst' h e
  | some (.files ss), h, ⟨xs, ls, e⟩ => by
    obtain ⟨h1, h2, d, j, a, b⟩ := e
    have hl := b.length
    have := Blocks.both Blocks.spine Blocks.filesAt h ⟨h1, h2, d, j, a, b⟩
    rw [hl] at this
    exact this

theorem Blocks.objects : ∀ {ps : List Ptr} {os : List (Option FObj)} (h : Mem), Objects ps os h →
    Blocks (os.map fun o => match o with | some o => o.size | none => 0).sum h
  | [], [], h, e => Blocks.emp h e
  | _ :: _, _ :: _, h, e => by
    rw [List.map_cons, List.sum_cons]
    exact Blocks.both Blocks.object Blocks.objects h e
  | [], _ :: _, _, e => e.elim
  | _ :: _, [], _, e => e.elim

/-! ### C74 -/

/-- C74: a program that makes any history of calls on source files and on lists of source files, and uses only what it was given and has
not freed, sees the results of `SourceFile.lean`, whatever addresses `malloc` returns; no call reads or writes freed or foreign memory, or
frees twice; and the blocks in use are those of what has not been freed, and those that are lost. -/
theorem C74_files (mc : Host) {al : Alloc} (hal : Good al) {disk : Disk} {cs : List FCall} {w : FWorld} {rs : List Res}
    (h : FWorld.run (library mc) { disk := disk } cs = some (w, rs)) :
    ∃ x m, progRun (library mc) al { disk := disk } cs (fun _ => none) = some ((x, rs), m) ∧ ∃ bs, InUse m bs ∧ bs.length = w.size + w.lost := by
  have t := progRun_does hal (library_ok mc) cs { disk := disk } { disk := disk } w rs (fun o ho => nomatch ho) h
  obtain ⟨y, m, h1, _, _, e, q⟩ := t nothing nothing (Disj.nothing _) ⟨rfl, [], fun _ h => absurd rfl h⟩
    (fact_star.mpr ⟨rfl, none_lost _ rfl⟩)
  rw [join_nothing, join_nothing] at h1
  obtain ⟨x, rs'⟩ := y
  dsimp only at e
  subst e
  obtain ⟨_, q⟩ := fact_star.mp q
  obtain ⟨bs, b1, b2, b3⟩ := Blocks.both (fun _ e => e) Blocks.objects m q
  exact ⟨x, m, h1, bs, ⟨b1, b3⟩, by rw [b2, Nat.add_comm]; rfl⟩

/-- A call that uses a pointer that the program was not given, that it has freed or that is to something else, or the place of a file that
is not in the list. -/
def FCall.misuses (w : FWorld) : FCall → Bool
  | .new _ _ | .newList => false
  | .call i _ | .free i => match w.objs[i]?.join with | some (.file _) => false | _ => true
  | .addFile i _ _ | .addDirectory i _ _ _ | .analyze i | .freeList i => match w.objs[i]?.join with | some (.files _) => false | _ => true
  | .callNth i n _ => match w.objs[i]?.join with | some (.files ss) => ss.length ≤ n | _ => true
  | .freeLocs i => match w.objs[i]?.join with | some (.locs _) => false | _ => true

/-- The source files of the program, in lists too. -/
def FWorld.has (w : FWorld) (s : SourceFile) : Prop := some (.file s) ∈ w.objs ∨ ∃ ss, some (.files ss) ∈ w.objs ∧ s ∈ ss

/-- A file that the library takes for a page, src/parsers/html.rl and the like. -/
def TakenForPage (mc : Host) (s : SourceFile) (disk : Disk) : Prop :=
  ∃ y lang, Ohcount.step (library mc) ⟨s, disk⟩ .getLanguage = some (y, .language (some lang)) ∧ Robust.IsPage lang

theorem takenForPage (mc : Host) {s : SourceFile} {disk : Disk}
    (h : ¬ ∀ lang, (s.detectLanguage (library mc) disk).language = some lang → ¬ Robust.IsPage lang) : TakenForPage mc s disk := by
  obtain ⟨lang, hl⟩ := Classical.not_forall.mp h
  obtain ⟨hl, hp⟩ := Classical.not_imp.mp hl
  exact ⟨⟨s.detectLanguage (library mc) disk, disk⟩, lang, by simp only [Ohcount.step, hl], Classical.not_not.mp hp⟩

theorem call_defined (mc : Host) {s : SourceFile} {disk : Disk} (hs : SizeOk s) (op : Op) (h : Ohcount.step (library mc) ⟨s, disk⟩ op = none) :
    TakenForPage mc s disk := by
  refine takenForPage mc fun hl => ?_
  obtain ⟨w', r, e, _⟩ := Robust.step_ok (mc := mc) (w := ⟨s, disk⟩) op hs hl
  rw [e] at h
  cases h

theorem loc_defined (mc : Host) {s : SourceFile} {disk : Disk} (hs : SizeOk s) (h : s.computeLoc (library mc) disk = none) : TakenForPage mc s disk :=
  call_defined mc hs .getLoc (by unfold Ohcount.step; dsimp only; rw [h]; rfl)

theorem analyze_defined (mc : Host) {disk : Disk} : ∀ {ss : List SourceFile} {acc : LocList}, (∀ s ∈ ss, SizeOk s) → analyzeLoop (library mc) disk acc ss = none →
    ∃ s ∈ ss, TakenForPage mc s disk
  | [], _, _, h => nomatch h
  | s :: ss, acc, hs, h => by
    cases e : s.computeLoc (library mc) disk with
    | none => exact ⟨s, by simp, loc_defined mc (hs s (by simp)) e⟩
    | some s' =>
      unfold analyzeLoop at h
      rw [e] at h
      obtain ⟨t, ht, h'⟩ := analyze_defined mc (fun t ht => hs t (List.mem_cons_of_mem _ ht)) h
      exact ⟨t, List.mem_cons_of_mem _ ht, h'⟩

theorem join_some {α : Type} {o : Option (Option α)} {a : α} (h : o.join = some a) : o = some (some a) := by
  cases o with
  | none => cases h
  | some o => exact congrArg some h

theorem step_defined (mc : Host) {w : FWorld} (hw : w.Ok) (c : FCall) (h : w.step (library mc) c = none) :
    c.misuses w = true ∨ ∃ s, w.has s ∧ TakenForPage mc s w.disk := by
  cases c with
  | new before path => cases h
  | newList => cases h
  | call i op =>
    cases hi : w.objs[i]?.join with
    | none => exact .inl (by simp [FCall.misuses, hi])
    | some o => cases o with
      | files ss => exact .inl (by simp [FCall.misuses, hi])
      | locs l => exact .inl (by simp [FCall.misuses, hi])
      | file s =>
        have hi := join_some hi
        have hm := List.mem_of_getElem? hi
        unfold FWorld.step at h
        dsimp only at h
        rw [hi] at h
        dsimp only at h
        cases e : Ohcount.step (library mc) ⟨s, w.disk⟩ op with
        | none => exact .inr ⟨s, .inl hm, call_defined mc (hw _ hm) op e⟩
        | some v => rw [e] at h; cases h
  | free i =>
    cases hi : w.objs[i]?.join with
    | none => exact .inl (by simp [FCall.misuses, hi])
    | some o => cases o with
      | files ss => exact .inl (by simp [FCall.misuses, hi])
      | locs l => exact .inl (by simp [FCall.misuses, hi])
      | file s => unfold FWorld.step at h; dsimp only at h; rw [join_some hi] at h; cases h
  | addFile i before path =>
    cases hi : w.objs[i]?.join with
    | none => exact .inl (by simp [FCall.misuses, hi])
    | some o => cases o with
      | file ss => exact .inl (by simp [FCall.misuses, hi])
      | locs l => exact .inl (by simp [FCall.misuses, hi])
      | files s => unfold FWorld.step at h; dsimp only at h; rw [join_some hi] at h; cases h
  | addDirectory i before d n =>
    cases hi : w.objs[i]?.join with
    | none => exact .inl (by simp [FCall.misuses, hi])
    | some o => cases o with
      | file ss => exact .inl (by simp [FCall.misuses, hi])
      | locs l => exact .inl (by simp [FCall.misuses, hi])
      | files s => unfold FWorld.step at h; dsimp only at h; rw [join_some hi] at h; cases h
  | callNth i n op =>
    cases hi : w.objs[i]?.join with
    | none => exact .inl (by simp [FCall.misuses, hi])
    | some o => cases o with
      | file ss => exact .inl (by simp [FCall.misuses, hi])
      | locs l => exact .inl (by simp [FCall.misuses, hi])
      | files ss =>
        cases hn : ss[n]? with
        | none => exact .inl (by simpa [FCall.misuses, hi] using hn)
        | some s =>
          have hi := join_some hi
          have hm := List.mem_of_getElem? hi
          have hs := List.mem_of_getElem? hn
          unfold FWorld.step at h
          dsimp only at h
          rw [hi] at h
          dsimp only at h
          rw [hn] at h
          dsimp only at h
          cases e : Ohcount.step (library mc) ⟨s, w.disk⟩ op with
          | none => exact .inr ⟨s, .inr ⟨ss, hm, hs⟩, call_defined mc (hw _ hm s hs) op e⟩
          | some v => rw [e] at h; cases h
  | analyze i =>
    cases hi : w.objs[i]?.join with
    | none => exact .inl (by simp [FCall.misuses, hi])
    | some o => cases o with
      | file ss => exact .inl (by simp [FCall.misuses, hi])
      | locs l => exact .inl (by simp [FCall.misuses, hi])
      | files ss =>
        have hi := join_some hi
        have hm := List.mem_of_getElem? hi
        unfold FWorld.step at h
        dsimp only at h
        rw [hi] at h
        dsimp only at h
        cases e : analyzeLanguages (library mc) w.disk ss with
        | none =>
          obtain ⟨s, hs, hp⟩ := analyze_defined mc (hw _ hm) e
          exact .inr ⟨s, .inr ⟨ss, hm, hs⟩, hp⟩
        | some l =>
          obtain ⟨ss', hc⟩ := analyze_count e
          rw [e, Option.bind_some, hc] at h
          cases h
  | freeList i =>
    cases hi : w.objs[i]?.join with
    | none => exact .inl (by simp [FCall.misuses, hi])
    | some o => cases o with
      | file ss => exact .inl (by simp [FCall.misuses, hi])
      | locs l => exact .inl (by simp [FCall.misuses, hi])
      | files s => unfold FWorld.step at h; dsimp only at h; rw [join_some hi] at h; cases h
  | freeLocs i =>
    cases hi : w.objs[i]?.join with
    | none => exact .inl (by simp [FCall.misuses, hi])
    | some o => cases o with
      | file ss => exact .inl (by simp [FCall.misuses, hi])
      | files l => exact .inl (by simp [FCall.misuses, hi])
      | locs s => unfold FWorld.step at h; dsimp only at h; rw [join_some hi] at h; cases h

theorem run_defined (mc : Host) : ∀ (cs : List FCall) {w : FWorld}, w.Ok → w.run (library mc) cs = none →
    ∃ n c w' rs, cs[n]? = some c ∧ w.run (library mc) (cs.take n) = some (w', rs) ∧ (c.misuses w' = true ∨ ∃ s, w'.has s ∧ TakenForPage mc s w'.disk)
  | [], _, _, h => nomatch h
  | c :: cs, w, hw, h => by
    cases e : w.step (library mc) c with
    | none => exact ⟨0, c, w, [], rfl, rfl, step_defined mc hw c e⟩
    | some v =>
      obtain ⟨w1, r⟩ := v
      obtain ⟨al, hal⟩ := good_exists
      have hw1 := (progStep_does (al := al) hal (library_ok mc) { disk := w.disk } w w1 c r hw e).2
      have h1 : w1.run (library mc) cs = none := by
        unfold FWorld.run at h
        rw [e, Option.bind_some] at h
        cases e1 : w1.run (library mc) cs with
        | none => rfl
        | some v => dsimp only at h; rw [e1] at h; cases h
      obtain ⟨n, c', w', rs, g1, g2, g3⟩ := run_defined mc cs hw1 h1
      refine ⟨n + 1, c', w', r :: rs, g1, ?_, g3⟩
      rw [List.take_succ_cons, FWorld.run, e, Option.bind_some]
      dsimp only
      rw [g2]
      rfl

/-- C74: a history has no results only if a call uses a pointer or a place that it must not use, or when a source file is at hand that the
library takes for a page (see C71). -/
theorem C74_defined (mc : Host) (disk : Disk) (cs : List FCall) (h : FWorld.run (library mc) { disk := disk } cs = none) :
    ∃ n c w rs, cs[n]? = some c ∧ FWorld.run (library mc) { disk := disk } (cs.take n) = some (w, rs) ∧
      (c.misuses w = true ∨ ∃ s, w.has s ∧ TakenForPage mc s w.disk) :=
  run_defined mc cs (fun _ h => nomatch h) h

/-! ### C75 -/

/-- C75 in full: when all has been freed, no block is in use. -/
def C75_full : Prop := ∀ (mc : Host) (al : Alloc), Good al → ∀ (disk : Disk) (cs : List FCall) (w : FWorld) (rs : List Res),
  FWorld.run (library mc) { disk := disk } cs = some (w, rs) → (∀ o ∈ w.objs, o = none) →
  ∃ x, progRun (library mc) al { disk := disk } cs (fun _ => none) = some ((x, rs), fun _ => none)

/-- A call of `ohcount_sourcefile_get_license_list`. -/
def FCall.asksLicenses : FCall → Bool
  | .call _ .getLicenses | .callNth _ _ .getLicenses => true
  | _ => false

theorem FWorld.size_none {w : FWorld} (hw : ∀ o ∈ w.objs, o = none) : w.size = 0 := by
  unfold FWorld.size
  generalize w.objs = l at hw
  induction l with
  | nil => rfl
  | cons o l ih =>
    have e : o = none := hw o (by simp)
    subst e
    rw [List.map_cons, List.sum_cons, Nat.zero_add]
    exact ih fun o ho => hw o (List.mem_cons_of_mem _ ho)

/-- When all has been freed, the blocks in use are the lost ones. -/
theorem C75_lost (mc : Host) {al : Alloc} (hal : Good al) {disk : Disk} {cs : List FCall} {w : FWorld} {rs : List Res}
    (h : FWorld.run (library mc) { disk := disk } cs = some (w, rs)) (hw : ∀ o ∈ w.objs, o = none) :
    ∃ x m, progRun (library mc) al { disk := disk } cs (fun _ => none) = some ((x, rs), m) ∧ ∃ bs, InUse m bs ∧ bs.length = w.lost := by
  obtain ⟨x, m, h1, bs, h2, h3⟩ := C74_files mc hal h
  exact ⟨x, m, h1, bs, h2, by rw [h3, FWorld.size_none hw, Nat.zero_add]⟩

theorem lost_step {env : Env} {w w' : FWorld} {c : FCall} {r : Res} (hc : c.asksLicenses = false) (h : w.step env c = some (w', r)) : w'.lost = w.lost := by
  have zero : ∀ {op : Op} {s s' : SourceFile}, (∀ i, (FCall.call i op).asksLicenses = false) → lossOf op s s' = 0 := by
    intro op s s' h
    cases op <;> first | rfl | exact absurd (h 0) (by decide)
  cases c with
  | new | newList => cases h; rfl
  | call i op =>
    unfold FWorld.step at h
    dsimp only at h
    split at h
    · rename_i s hi
      obtain ⟨⟨y, r'⟩, h1, h⟩ := Option.bind_eq_some_iff.mp h
      injection h with h
      rw [← (Prod.mk.inj h).1]
      show w.lost + lossOf op s y.sf = w.lost
      rw [zero (fun _ => by cases op <;> first | rfl | cases hc), Nat.add_zero]
    · cases h
  | callNth i n op =>
    unfold FWorld.step at h
    dsimp only at h
    split at h
    · split at h
      · rename_i s hi
        obtain ⟨⟨y, r'⟩, h1, h⟩ := Option.bind_eq_some_iff.mp h
        injection h with h
        rw [← (Prod.mk.inj h).1]
        show w.lost + lossOf op s y.sf = w.lost
        rw [zero (fun _ => by cases op <;> first | rfl | cases hc), Nat.add_zero]
      · cases h
    · cases h
  | analyze i =>
    unfold FWorld.step at h
    dsimp only at h
    split at h
    · obtain ⟨l, h1, h⟩ := Option.bind_eq_some_iff.mp h
      obtain ⟨ss', h2, h⟩ := Option.bind_eq_some_iff.mp h
      injection h with h
      rw [← (Prod.mk.inj h).1]
    · cases h
  | free | addFile | addDirectory | freeList | freeLocs =>
    unfold FWorld.step at h
    dsimp only at h
    split at h
    · injection h with h
      rw [← (Prod.mk.inj h).1]
    · cases h

theorem lost_run {env : Env} : ∀ {cs : List FCall} {w w' : FWorld} {rs : List Res}, (∀ c ∈ cs, c.asksLicenses = false) → w.run env cs = some (w', rs) → w'.lost = w.lost
  | [], _, _, _, _, h => by cases h; rfl
  | c :: cs, w, w', rs, hc, h => by
    unfold FWorld.run at h
    obtain ⟨⟨w1, r⟩, h1, h⟩ := Option.bind_eq_some_iff.mp h
    obtain ⟨⟨w2, rs'⟩, h2, h⟩ := Option.bind_eq_some_iff.mp h
    injection h with h
    rw [← (Prod.mk.inj h).1, ← lost_step (hc c (by simp)) h1]
    exact lost_run (fun c hc' => hc c (List.mem_cons_of_mem _ hc')) h2

/-- C75 for histories that do not ask for licenses. -/
theorem C75_noLeak_partial (mc : Host) {al : Alloc} (hal : Good al) {disk : Disk} {cs : List FCall} {w : FWorld} {rs : List Res}
    (h : FWorld.run (library mc) { disk := disk } cs = some (w, rs)) (hw : ∀ o ∈ w.objs, o = none) (hc : ∀ c ∈ cs, c.asksLicenses = false) :
    ∃ x, progRun (library mc) al { disk := disk } cs (fun _ => none) = some ((x, rs), fun _ => none) := by
  obtain ⟨x, m, h1, bs, ⟨_, h2⟩, h3⟩ := C75_lost mc hal h hw
  have hb : bs = [] := List.eq_nil_of_length_eq_zero (h3.trans (lost_run hc h))
  refine ⟨x, ?_⟩
  rw [h1]
  congr
  funext a
  have := h2 a
  rw [hb] at this
  by_cases e : m a = none
  · exact e
  · exact absurd (this.mp e) (fun h => nomatch h)

/-- The licenses of a C file are asked for. -/
def leak : List FCall := [.new 0 (bytes "a.c"), .call 0 .getLicenses, .free 0]

def leakDisk : Disk := fun p => if p = bytes "a.c" then some (bytes "int x;\n") else none

/-- C75 is false: the buffer of src/licenses.c:804 is not freed. -/
theorem C75_negation : ¬ C75_full := by
  intro hf
  obtain ⟨al, hal⟩ := good_exists
  have e : ((FWorld.run (library LibraryProps.plainHost) { disk := leakDisk } leak).map fun v => (v.1.lost, v.1.objs.all Option.isNone)) = some (1, true) := by decide +kernel
  obtain ⟨⟨w, rs⟩, h, e⟩ := Option.map_eq_some_iff.mp e
  injection e with e1 e2
  have hw : ∀ o ∈ w.objs, o = none := fun o ho => by simpa using List.all_eq_true.mp e2 o ho
  obtain ⟨x, h1⟩ := hf _ al hal _ _ w rs h hw
  obtain ⟨x', m, h2, bs, ⟨_, h3⟩, h4⟩ := C75_lost _ hal h hw
  rw [h2] at h1
  injection h1 with h1
  have hm : m = fun _ => none := (Prod.mk.inj h1).2
  cases bs with
  | nil => rw [show w.lost = 1 from e1] at h4; cases h4
  | cons b bs => exact (h3 b).mpr (by simp) (by rw [hm])

/-! ### A history -/

def sampleDisk : Disk := fun p => if p = bytes "a.c" ∨ p = bytes "d/b.c" then some (bytes "/* A */\nint x;\n") else none

/-- Source files and a list; the contents are set, the disk changes, all is freed at last. -/
def sampleFiles : List FCall :=
  [.new 0 (bytes "a.c"), .call 0 .getLanguage, .call 0 .getLoc, .call 0 (.diskChange fun _ => none), .call 0 (.setContents (bytes "y;")), .call 0 .getSize, .call 0 .getLoc,
   .call 0 (.diskChange sampleDisk), .newList, .addFile 1 0 (bytes "a.c"), .addDirectory 1 0 (bytes "d") (.dir true [(bytes "b.c", .reg)]), .callNth 1 1 (.setDiskpath (bytes "a.c")),
   .callNth 1 1 .getParsed, .analyze 1, .call 0 (.setDiskpath (bytes "z")), .free 0, .freeList 1, .freeLocs 2]

example : ((FWorld.run (library LibraryProps.plainHost) { disk := sampleDisk } sampleFiles).map fun v => (v.1.lost, v.1.objs.length, v.1.objs.all Option.isNone,
    v.2.filterMap fun r => match r with | .loc l => some l | _ => none)) =
    some (0, 3, true, [[⟨"c", 1, 1, 0, 1⟩], [⟨"c", 1, 1, 0, 1⟩], [⟨"c", 2, 2, 0, 2⟩]]) := by decide +kernel

example : ∀ c ∈ sampleFiles, c.asksLicenses = false := by decide

example : (FWorld.run (library LibraryProps.plainHost) { disk := sampleDisk } (sampleFiles.take 14)).map (fun v => v.1.size) = some ((2 + 1 + 2 + 2) + (2 + (2 + 2 + 2) + (2 + 1 + 2 + 2)) + 2) := by
  decide +kernel

/-- A pointer is used that has been freed. -/
example : FWorld.run (library LibraryProps.plainHost) { disk := sampleDisk } [.new 0 (bytes "a.c"), .free 0, .call 0 .getSize] = none := by rfl

end Ohcount.Mem
