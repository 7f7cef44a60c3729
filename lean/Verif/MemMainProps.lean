import Verif.MemMainRun
import Verif.MemFileProps
import Verif.CliProps
import Verif.MemHeld

/-!
C79 and C80: runs of the program in memory.
-/

namespace Ohcount.Mem
open Ohcount.Cli Ohcount.CliProps
open Ragel (bytes)

/-! ### C79 -/

/-- The paths of the files that are examined. -/
def examined (fs : Fs) (paths : List Bytes) : List Bytes := if paths = [] then currentDirectory fs else paths.flatMap (filesOf fs)

theorem program_eq {env : Env} {raw : String → Option Bytes → Int → List Entity} {disk : Disk} {before : Byte} {fs : Fs} {args paths : List Bytes} {c : Command}
    (hc : Selects args c paths) (prog : Bytes) : program env raw disk before fs (prog :: args) =
      (printed env raw disk ((examined fs paths).map (SourceFile.new before)) c).map fun v => ((paths.filter (isBad fs)).map .bad ++ v.1, v.2) := by
  obtain ⟨h1, h2, h3⟩ := C45_runs before fs prog args paths c hc
  unfold program
  dsimp only
  rw [h1, h2, h3]
  rfl

/-- C79: a run of the program prints the complaints about the paths that cannot be opened and then what its command prints for the files that the
paths stand for, whatever addresses `malloc` returns and whatever the parsers report as entities; no freed, unallocated or null block is
read, written or freed; and at the end exactly the blocks that the account counts are in use. -/
theorem C79_program (mc : Host) (raw : String → Option Bytes → Int → List Entity) {al : Alloc} (hal : Good al) (disk : Disk) (before : Byte) (fs : Fs) (prog : Bytes)
    {args paths : List Bytes} {c : Command} (hc : Selects args c paths) {o : List Out} {n : Nat}
    (h : printed (library mc) raw disk ((examined fs paths).map (SourceFile.new before)) c = some (o, n)) :
    ∃ m, mainRun (library mc) raw al disk before fs (prog :: args) (fun _ => none) = some ((paths.filter (isBad fs)).map .bad ++ o, m) ∧
      ∃ bs, InUse m bs ∧ bs.length = n := by
  have t := mainRun_does (al := al) hal (library_ok mc) before fs (prog :: args) _ n (by rw [program_eq hc prog, h]; rfl)
  obtain ⟨y, m, h1, _, _, e, bs, b1, b2, b3⟩ := t nothing nothing (Disj.nothing _) ⟨rfl, [], fun _ h => absurd rfl h⟩ rfl
  rw [join_nothing, join_nothing] at h1
  subst e
  exact ⟨m, h1, bs, ⟨b1, b3⟩, b2⟩

theorem forAll_none {f : SourceFile → Option (SourceFile × List Out × Nat)} : ∀ {ss : List SourceFile}, forAll f ss = none ↔ ∃ s ∈ ss, f s = none
  | [] => ⟨fun h => (nomatch h), fun ⟨_, h, _⟩ => nomatch h⟩
  | s :: ss => by
    unfold forAll
    have ih := forAll_none (f := f) (ss := ss)
    cases h1 : f s with
    | none => exact ⟨fun _ => ⟨s, by simp, h1⟩, fun _ => rfl⟩
    | some v =>
      rw [Option.bind_some]
      cases h2 : forAll f ss with
      | none =>
        obtain ⟨t, ht, e⟩ := ih.mp h2
        exact ⟨fun _ => ⟨t, by simp [ht], e⟩, fun _ => rfl⟩
      | some w =>
        refine ⟨fun h => (nomatch h), fun ⟨t, ht, e⟩ => ?_⟩
        rcases List.mem_cons.mp ht with rfl | ht
        · rw [h1] at e; cases e
        · exact absurd (ih.mpr ⟨t, ht, e⟩) (by rw [h2]; exact fun h => nomatch h)

theorem individual_none {env : Env} {disk : Disk} : ∀ {ss : List SourceFile}, individualLoop env disk ss = none → ∃ s ∈ ss, s.computeLoc env disk = none
  | [], h => nomatch h
  | s :: ss, h => by
    cases h1 : s.computeLoc env disk with
    | none => exact ⟨s, by simp, h1⟩
    | some s' =>
      unfold individualLoop at h
      rw [h1, Option.bind_some] at h
      cases h2 : individualLoop env disk ss with
      | none =>
        obtain ⟨t, ht, e⟩ := individual_none h2
        exact ⟨t, by simp [ht], e⟩
      | some w => rw [h2] at h; cases h

theorem licenses_defined (mc : Host) {s : SourceFile} {disk : Disk} (hs : SizeOk s) (h : s.computeLicenses (library mc) disk = none) : TakenForPage mc s disk :=
  call_defined mc hs .getLicenses (by unfold Ohcount.step; dsimp only; rw [h]; rfl)

/-- C79: the account has nothing to say only if a file is taken for a page, or if lines are to be annotated. -/
theorem C79_defined (mc : Host) (raw : String → Option Bytes → Int → List Entity) (disk : Disk) (before : Byte) (paths : List Bytes) (c : Command)
    (h : printed (library mc) raw disk (paths.map (SourceFile.new before)) c = none) :
    (c = .annotate ∧ ∃ path ∈ paths, ∃ y r rs, Ohcount.step (library mc) ⟨SourceFile.new before path, disk⟩ .parseWithCallback = some (y, .reports (r :: rs))) ∨
    ((c = .summary ∨ c = .individual ∨ c = .licenses) ∧ ∃ path ∈ paths, TakenForPage mc (SourceFile.new before path) disk) := by
  have ok : ∀ s ∈ paths.map (SourceFile.new before), SizeOk s := fun s hs => by
    obtain ⟨p, _, rfl⟩ := List.mem_map.mp hs
    exact SizeOk.new before p
  unfold printed at h
  cases c with
  | annotate =>
    obtain ⟨s, hs, e⟩ := forAll_none.mp (Option.map_eq_none_iff.mp h)
    obtain ⟨p, hp, rfl⟩ := List.mem_map.mp hs
    refine .inl ⟨rfl, p, hp, ?_⟩
    cases hr : ((SourceFile.new before p).runParser (library mc) disk).2 with
    | nil => unfold annotateFor at e; rw [hr] at e; cases e
    | cons r rs => exact ⟨_, r, rs, by simp only [Ohcount.step, hr]; rfl⟩
  | detect => cases h
  | help => cases h
  | rawEntities => cases h
  | individual =>
    obtain ⟨s, hs, e⟩ := individual_none (Option.map_eq_none_iff.mp (Option.map_eq_none_iff.mp h))
    obtain ⟨p, hp, rfl⟩ := List.mem_map.mp hs
    exact .inr ⟨.inr (.inl rfl), p, hp, loc_defined mc (ok _ hs) e⟩
  | licenses =>
    obtain ⟨s, hs, e⟩ := forAll_none.mp (Option.map_eq_none_iff.mp h)
    obtain ⟨p, hp, rfl⟩ := List.mem_map.mp hs
    exact .inr ⟨.inr (.inr rfl), p, hp, licenses_defined mc (ok _ hs) (by
      cases e' : (SourceFile.new before p).computeLicenses (library mc) disk with
      | none => rfl
      | some s' => unfold licensesFor at e; rw [e'] at e; cases e)⟩
  | summary =>
    obtain ⟨s, hs, e⟩ := analyze_defined mc ok (Option.map_eq_none_iff.mp (Option.map_eq_none_iff.mp h))
    obtain ⟨p, hp, rfl⟩ := List.mem_map.mp hs
    exact .inr ⟨.inl rfl, p, hp, e⟩

/-! ### Lines that are annotated -/

section
variable {env : Env} {al : Alloc} {disk : Disk}

theorem Fails.undefined {α : Type} (P : Asn) : Fails (undefined : M α) P := fun _ _ _ _ _ => rfl

theorem annotateLine_fails (q : Ptr) (s : SourceFile) (k : Slots) (r : Report) : Fails (annotateLine env q r) (FileAt q s k) := by
  unfold annotateLine
  refine Fails.ofDoes (FileAt.get q s k) ?_
  refine Fails.doStep (FileAt.atC ..) (getTextOpt_does k.cp _) ?_
  rw [C49_always_overruns]
  exact Fails.undefined _

theorem annotateOne_fails (hal : Good al) (ok : EnvOk env) (q : Ptr) (s : SourceFile) (h : annotateFor env disk s = none) : Fails (annotateOne env al disk q) (File q s) := by
  refine Fails.ex fun k => ?_
  unfold annotateOne
  refine Fails.bind (parserRun_does hal ok q s k) fun rs => ?_
  intro h1 h2 d fin ⟨e, c, p⟩
  subst e
  cases hr : (s.runParser env disk).2 with
  | nil => unfold annotateFor at h; rw [hr] at h; cases h
  | cons r rs =>
    unfold annotateAll
    exact Fails.first (annotateLine_fails q _ _ r) h1 h2 d fin p

theorem forFiles_fails {f : SourceFile → Option (SourceFile × List Out × Nat)} {body : Ptr → M (List Out)} (hb : Body f body)
    (hf : ∀ q s, f s = none → Fails (body q) (File q s)) (p : Ptr) (ls : List String) :
    ∀ (xs2 xs1 : List (Ptr × Ptr)) (ss2 ss1 : List SourceFile), xs1.length = ss1.length → (∀ s ∈ ss2, SizeOk s) → forAll f ss2 = none →
    Fails (forFiles body (headPtr xs2)) (Spine p (xs1 ++ xs2) ls ⋆ FilesAt (xs1 ++ xs2) (ss1 ++ ss2))
  | _, _, [], _, _, _, h => nomatch h
  | [], xs1, v :: vs2, vs1, hl, _, _ => by
    refine Fails.know (φ := False) (star_ne' fun h c _ => ?_) fun h => h.elim
    have := c.length
    simp at this
    omega
  | x :: xs2, xs1, s :: ss2, ss1, hl, hs, h => by
    have hc : ∀ s, FilesAt (xs1 ++ x :: xs2) (ss1 ++ s :: ss2) = File x.2 s ⋆ FilesAt xs1 ss1 ⋆ FilesAt xs2 ss2 := fun s => by
      rw [FilesAt.append hl]
      show _ ⋆ (File x.2 s ⋆ _) = _
      ac_rfl
    refine Fails.know (star_ne fun h s => s.ne) fun hx => ?_
    rw [forFiles, show headPtr (x :: xs2) = x.1 from rfl, if_neg hx]
    refine Fails.step rfl (getNth_does p xs1 x xs2 ls) fun n => ?_
    intro m1 m2 d fin e
    obtain ⟨a1, a2, d', e', ⟨hn, w⟩, w'⟩ := e
    rw [hn.1]
    have all : (Spine p (xs1 ++ x :: xs2) ls ⋆ FilesAt (xs1 ++ x :: xs2) (ss1 ++ s :: ss2)) m1 := ⟨a1, a2, d', e', w, w'⟩
    refine (?_ : Fails _ (Spine p (xs1 ++ x :: xs2) ls ⋆ FilesAt (xs1 ++ x :: xs2) (ss1 ++ s :: ss2))) m1 m2 d fin all
    cases h1 : f s with
    | none =>
      refine Fails.first ?_
      rw [hc, star_left_comm]
      exact Fails.frame (hf x.2 s h1)
    | some v =>
      obtain ⟨s', o1, n1⟩ := v
      have h2 : forAll f ss2 = none := by
        unfold forAll at h
        rw [h1, Option.bind_some] at h
        cases h2 : forAll f ss2 with
        | none => rfl
        | some w => rw [h2] at h; cases h
      refine Fails.doStep (A := File x.2 s) (F := Spine p (xs1 ++ x :: xs2) ls ⋆ FilesAt xs1 ss1 ⋆ FilesAt xs2 ss2)
        (by rw [hc]; ac_rfl) (hb x.2 s s' o1 n1 (hs s (by simp)) h1) ?_
      have ih := forFiles_fails hb hf p ls xs2 (xs1 ++ [x]) ss2 (ss1 ++ [s']) (by simp [hl]) (fun t ht => hs t (by simp [ht])) h2
      rw [List.append_assoc, List.append_assoc] at ih
      refine Fails.step (A := Spine p (xs1 ++ x :: xs2) ls) (F := Blocks n1 ⋆ FilesAt (xs1 ++ x :: xs2) (ss1 ++ s' :: ss2))
        (by rw [hc]; ac_rfl) (getNth_does p xs1 x xs2 ls) fun n => ?_
      intro m1 m2 d fin e
      obtain ⟨a1, a2, d', e', ⟨hn, w⟩, w'⟩ := e
      rw [hn.2.1]
      have all : (Spine p (xs1 ++ x :: xs2) ls ⋆ Blocks n1 ⋆ FilesAt (xs1 ++ x :: xs2) (ss1 ++ s' :: ss2)) m1 := ⟨a1, a2, d', e', w, w'⟩
      rw [star_left_comm, star_comm] at all
      exact Fails.first (Fails.frame ih) m1 m2 d fin all

theorem overFiles_fails {f : SourceFile → Option (SourceFile × List Out × Nat)} {body : Ptr → M (List Out)} (hb : Body f body)
    (hf : ∀ q s, f s = none → Fails (body q) (File q s)) (p : Ptr) (ss : List SourceFile) (hs : ∀ s ∈ ss, SizeOk s) (h : forAll f ss = none) :
    Fails (overFiles body p) (Files p ss) := by
  refine Fails.ex fun xs => Fails.ex fun ls => ?_
  unfold overFiles
  refine Fails.step rfl (getHead_does p xs ls) fun n => ?_
  intro m1 m2 d fin e
  obtain ⟨a1, a2, d', e', ⟨hn, w⟩, w'⟩ := e
  rw [hn]
  exact forFiles_fails hb hf p ls xs [] ss [] rfl hs h m1 m2 d fin ⟨a1, a2, d', e', w, w'⟩

end

/-- C79: a run that is to annotate a file in which the parser reports a line stores outside of an array. -/
theorem C79_annotate (mc : Host) (raw : String → Option Bytes → Int → List Entity) {al : Alloc} (hal : Good al) (disk : Disk) (before : Byte) (fs : Fs) (prog : Bytes)
    {args paths : List Bytes} (hc : Selects args .annotate paths) {path : Bytes} (hp : path ∈ examined fs paths) {y : Ohcount.World} {r : Report} {rs : List Report}
    (h : Ohcount.step (library mc) ⟨SourceFile.new before path, disk⟩ .parseWithCallback = some (y, .reports (r :: rs))) :
    mainRun (library mc) raw al disk before fs (prog :: args) (fun _ => none) = none := by
  obtain ⟨h1, h2, h3⟩ := C45_runs before fs prog args paths .annotate hc
  have hn : forAll (annotateFor (library mc) disk) ((examined fs paths).map (SourceFile.new before)) = none := by
    refine forAll_none.mpr ⟨_, List.mem_map_of_mem hp, ?_⟩
    unfold Ohcount.step at h
    injection h with h
    injection h with _ h
    injection h with h
    replace h : ((SourceFile.new before path).runParser (library mc) disk).2 = r :: rs := h
    unfold annotateFor
    rw [h]
    unfold annotateLines
    rw [C49_always_overruns]
    rfl
  have t : Fails (mainRun (library mc) raw al disk before fs (prog :: args)) emp := by
    unfold mainRun
    refine Fails.bind (filesNew_does hal) fun p => ?_
    have t1 : Does (onlyIf (firstPath (prog :: args) = (prog :: args).length) (hereRun al before fs p)) (Files p []) ()
        (Files p (if firstPath (prog :: args) = (prog :: args).length then addDir before fs [] [chDot] else [])) := by
      unfold onlyIf
      split
      · exact hereRun_does hal before fs p []
      · exact Does.pure _ _
    refine Fails.ofDoes t1 ?_
    refine Fails.ofDoes (pathsRun_does hal before fs p _ _) ?_
    refine Fails.first ?_
    have e1 : (selected (prog :: args)).getD .summary = .annotate := h1
    rw [e1]
    have ok := SizeOk.plan before fs (prog :: args)
    have e2 : forAll (annotateFor (library mc) disk) (plan before fs (prog :: args)).files = none := by rw [h2]; exact hn
    exact overFiles_fails (annotateOne_does hal (library_ok mc)) (annotateOne_fails hal (library_ok mc)) p _ ok e2
  have := t nothing nothing (Disj.nothing _) ⟨rfl, [], fun _ h => absurd rfl h⟩ rfl
  rw [join_nothing] at this
  exact this

/-- C79: the lines of `-l` are the licenses that are found in the files, in their order, with a comma after each but the last of a file. -/
theorem C79_licenses (mc : Host) (raw : String → Option Bytes → Int → List Entity) (disk : Disk) (before : Byte) : ∀ (paths : List Bytes) {o : List Out} {n : Nat},
    printed (library mc) raw disk (paths.map (SourceFile.new before)) .licenses = some (o, n) → ∃ names : List (List String), names.length = paths.length ∧
      (∀ (i : Nat) (p : Bytes) (l : List String), paths[i]? = some p → names[i]? = some l → ∃ y, Ohcount.step (library mc) ⟨SourceFile.new before p, disk⟩ .getLicenses = some (y, .licenses l)) ∧
      o = (paths.zip names).flatMap fun x => licenseLines (x.1.drop (SourceFile.new before x.1).parts.filename) x.2
  | [], o, n, h => by
    injection h with h
    injection h with h _
    subst h
    exact ⟨[], rfl, fun i p l h => (nomatch h), rfl⟩
  | p :: paths, o, n, h => by
    obtain ⟨⟨ss', o', n'⟩, h1, h2⟩ := Option.map_eq_some_iff.mp h
    injection h2 with h2 h3
    subst h2 h3
    rw [List.map_cons] at h1
    unfold forAll at h1
    obtain ⟨⟨s1, o1, n1⟩, g1, h1⟩ := Option.bind_eq_some_iff.mp h1
    obtain ⟨⟨ss2, o2, n2⟩, g2, h1⟩ := Option.bind_eq_some_iff.mp h1
    injection h1 with h1
    injection h1 with e1 h1
    injection h1 with e2 e3
    dsimp only at e1 e2 e3
    subst e1 e2 e3
    obtain ⟨names, a1, a2, a3⟩ := C79_licenses mc raw disk before paths (o := o2) (n := n2) (by unfold printed; dsimp only; rw [g2]; rfl)
    obtain ⟨s2, b1, b2⟩ := Option.bind_eq_some_iff.mp g1
    injection b2 with b2
    injection b2 with b3 b2
    injection b2 with b2 _
    refine ⟨s2.licenses.getD [] :: names, by simp [a1], ?_, ?_⟩
    · intro i q l hq hl
      cases i with
      | zero =>
        injection hq with hq
        injection hl with hl
        subst hq hl
        exact ⟨⟨s2, disk⟩, by unfold Ohcount.step; dsimp only; rw [b1]; rfl⟩
      | succ i => exact a2 i q l hq hl
    · rw [a3, ← b2]
      rfl

/-- C79: the lines of `-re` are what the parsers of the languages of the files report. -/
theorem C79_entities (mc : Host) (raw : String → Option Bytes → Int → List Entity) (disk : Disk) (before : Byte) (paths : List Bytes) :
    printed (library mc) raw disk (paths.map (SourceFile.new before)) .rawEntities = some ((paths.flatMap fun p =>
      match Ohcount.step (library mc) ⟨SourceFile.new before p, disk⟩ .getLanguage with
      | some (w, .language (some lang)) => if (library mc).hasParser lang then
          match Ohcount.run (library mc) w [.getContents, .getSize] with
          | some (_, [.contents c, .size n]) => raw lang c n
          | _ => []
        else []
      | _ => []).map .entity, 0) := by
  unfold printed
  dsimp only
  rw [List.flatMap_map, List.map_flatMap]
  congr 3
  funext p
  congr 1
  unfold entitiesOf Ohcount.step
  dsimp only
  cases ((SourceFile.new before p).detectLanguage (library mc) disk).language with
  | none => rfl
  | some lang =>
    dsimp only
    split
    · have : (((SourceFile.new before p).detectLanguage (library mc) disk).loadContents disk).sizeOf disk =
          ((SourceFile.new before p).detectLanguage (library mc) disk).loadContents disk := load_sizeOf _
      simp only [Ohcount.run, Ohcount.step, Option.bind_some, this]
    · rfl

/-! ### C80 -/

/-- C80: a run of the program leaves nothing behind. -/
def C80_full : Prop := ∀ (mc : Host) (raw : String → Option Bytes → Int → List Entity) (al : Alloc), Good al → ∀ (disk : Disk) (before : Byte) (fs : Fs) (argv : List Bytes)
    (o : List Out) (m : Mem), argv ≠ [] → mainRun (library mc) raw al disk before fs argv (fun _ => none) = some (o, m) → m = fun _ => none

theorem empty_of {m : Mem} {bs : List Ptr} (h : InUse m bs) (hb : bs.length = 0) : m = fun _ => none := by
  funext a
  have := h.2 a
  rw [List.eq_nil_of_length_eq_zero hb] at this
  by_cases e : m a = none
  · exact e
  · exact absurd (this.mp e) (fun h => nomatch h)

theorem printed_zero {env : Env} {raw : String → Option Bytes → Int → List Entity} {disk : Disk} {ss : List SourceFile} {c : Command} {o : List Out} {n : Nat} (hc : c ≠ .licenses)
    (h : printed env raw disk ss c = some (o, n)) : n = 0 := by
  unfold printed at h
  cases c with
  | licenses => exact absurd rfl hc
  | detect | help | rawEntities => exact (Prod.mk.inj (Option.some.inj h)).2.symm
  | annotate | individual | summary =>
    obtain ⟨_, _, h⟩ := Option.map_eq_some_iff.mp h
    exact (Prod.mk.inj h).2.symm

/-- C80, for all commands but `-l`.  Missing: `-l`, for which it is false. -/
theorem C80_nothingLeft_partial (mc : Host) (raw : String → Option Bytes → Int → List Entity) {al : Alloc} (hal : Good al) (disk : Disk) (before : Byte) (fs : Fs) (prog : Bytes)
    {args paths : List Bytes} {c : Command} (hc : Selects args c paths) (hl : c ≠ .licenses) {o : List Out} {n : Nat}
    (h : printed (library mc) raw disk ((examined fs paths).map (SourceFile.new before)) c = some (o, n)) :
    mainRun (library mc) raw al disk before fs (prog :: args) (fun _ => none) = some ((paths.filter (isBad fs)).map .bad ++ o, fun _ => none) := by
  obtain ⟨m, h1, bs, h2, h3⟩ := C79_program mc raw hal disk before fs prog hc h
  rw [h1, empty_of h2 (h3.trans (printed_zero hl h))]

/-- C80: what `-l` leaves behind is a block for each language that was found in each of the files. -/
theorem C80_licenses (mc : Host) (raw : String → Option Bytes → Int → List Entity) (disk : Disk) (before : Byte) : ∀ (paths : List Bytes) {o : List Out} {n : Nat},
    printed (library mc) raw disk (paths.map (SourceFile.new before)) .licenses = some (o, n) →
    n = (paths.map fun p => match Ohcount.step (library mc) ⟨SourceFile.new before p, disk⟩ .getParsed with | some (_, .parsed pls) => pls.length | _ => 0).sum
  | [], o, n, h => by
    injection h with h
    injection h with _ h
    exact h.symm
  | p :: paths, o, n, h => by
    obtain ⟨⟨ss', o', n'⟩, h1, h2⟩ := Option.map_eq_some_iff.mp h
    injection h2 with h2 h3
    subst h2 h3
    rw [List.map_cons] at h1
    unfold forAll at h1
    obtain ⟨⟨s1, o1, n1⟩, g1, h1⟩ := Option.bind_eq_some_iff.mp h1
    obtain ⟨⟨ss2, o2, n2⟩, g2, h1⟩ := Option.bind_eq_some_iff.mp h1
    injection h1 with h1
    injection h1 with e1 h1
    injection h1 with e2 e3
    dsimp only at e1 e2 e3
    subst e1 e2 e3
    have ih := C80_licenses mc raw disk before paths (o := o2) (n := n2) (by unfold printed; dsimp only; rw [g2]; rfl)
    obtain ⟨s2, b1, b2⟩ := Option.bind_eq_some_iff.mp g1
    injection b2 with b2
    injection b2 with b3 b2
    injection b2 with _ b2
    rw [List.map_cons, List.sum_cons, ← ih, ← b2]
    congr 1
    rcases computeLicenses_cases b1 with h | ⟨_, s3, pls, c1, c2, _, rfl⟩
    · exact absurd rfl h.1
    · unfold Ohcount.step licenseLoss
      dsimp only
      rw [c1, c2]
      simp only [Option.bind_some, c2]
      rfl

/-! ### Runs -/

/-- A directory `d` with a C file, and a file `a.c`. -/
def runFs : Fs := ⟨fun p => if p = bytes "d" then some [(bytes "b.c", .reg)] else none, fun p => p = bytes "a.c"⟩

def runDisk : Disk := fun p => if p = bytes "a.c" ∨ p = bytes "d/b.c" then some (bytes "/* released under the zlib license */\nint x;\n") else none

def noEntities : String → Option Bytes → Int → List Entity := fun _ _ _ => []

/-- C80 is false: `ohcount -l a.c`. -/
theorem C80_negation : ¬ C80_full := by
  intro hf
  obtain ⟨al, hal⟩ := good_exists
  have hc : Selects [bytes "-l", bytes "a.c"] .licenses [bytes "a.c"] := .option _ "-l" _ _ (by decide) (by decide +kernel)
  have e : (printed (library LibraryProps.plainHost) noEntities leakDisk ((examined runFs [bytes "a.c"]).map (SourceFile.new 0)) .licenses).map (·.2) = some 1 := by decide +kernel
  obtain ⟨⟨o, n⟩, h, e⟩ := Option.map_eq_some_iff.mp e
  obtain ⟨m, h1, bs, h2, h3⟩ := C79_program LibraryProps.plainHost noEntities hal leakDisk 0 runFs (bytes "ohcount") hc h
  have := hf _ _ al hal _ _ _ _ _ m (by simp) h1
  cases bs with
  | nil => rw [show n = 1 from e] at h3; cases h3
  | cons b bs => exact (h2.2 b).mpr (by simp) (by rw [this])

/-- `ohcount -i x a.c d` -/
example : Selects [bytes "-i", bytes "x", bytes "a.c", bytes "d"] .individual [bytes "x", bytes "a.c", bytes "d"] := .option _ "-i" _ _ (by decide) (by decide +kernel)

example : program (library LibraryProps.plainHost) noEntities runDisk 0 runFs [bytes "ohcount", bytes "-i", bytes "x", bytes "a.c", bytes "d"] =
    some ([.bad (bytes "x"), .examining 2, .fileRow ⟨"c", 1, 1, 1, some (1, 2), 0, 2⟩ (bytes "a.c"), .fileRow ⟨"c", 1, 1, 1, some (1, 2), 0, 2⟩ (bytes "d/b.c")], 0) := by
  decide +kernel

example : program (library LibraryProps.plainHost) noEntities runDisk 0 runFs [bytes "ohcount", bytes "d", bytes "a.c"] =
    some ([.examining 2, .row ⟨"c", 2, 2, 2, some (2, 4), 0, 4⟩, .totals ⟨"Total", 2, 2, 2, some (2, 4), 0, 4⟩], 0) := by
  decide +kernel

example : program (library LibraryProps.plainHost) noEntities runDisk 0 runFs [bytes "ohcount", bytes "-d", bytes "a.c", bytes "x"] =
    some ([.bad (bytes "x"), .detected (some "c") (bytes "a.c")], 0) := by
  decide +kernel

example : program (library LibraryProps.plainHost) noEntities runDisk 0 runFs [bytes "ohcount", bytes "-l", bytes "a.c", bytes "d"] =
    some ([], 2) := by
  decide +kernel

/-- An engine that finds two licenses. -/
def twoLicenses : Host := { LibraryProps.plainHost with engine := ⟨fun k t => if k = 60 then some (0, 3) else if k = 70 ∧ t ≠ [] then some (5, 8) else none, fun _ _ => false⟩ }

example : (program (library twoLicenses) noEntities runDisk 0 runFs [bytes "ohcount", bytes "-l", bytes "d"]).map (fun v => (v.1.length, v.2, v.1.map fun o => match o with
    | .license _ more file => (more, file) | _ => (false, []))) = some (2, 1, [(true, bytes "b.c"), (false, bytes "b.c")]) := by
  decide +kernel

example : (program (library LibraryProps.plainHost) (fun lang c n => [⟨lang, "comment", 0, min n (c.getD []).length⟩]) runDisk 0 runFs [bytes "ohcount", bytes "-re", bytes "a.c"]) =
    some ([.entity ⟨"c", "comment", 0, 45⟩], 0) := by
  decide +kernel

example : (Ohcount.step (library LibraryProps.plainHost) ⟨SourceFile.new 0 (bytes "a.c"), runDisk⟩ .parseWithCallback).map (fun v => match v.2 with | .reports rs => rs.length | _ => 0) = some 2 := by
  decide +kernel

end Ohcount.Mem
