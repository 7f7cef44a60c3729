import Verif.MemMain
import Verif.MemDiff

/-!
The programs of `MemMain.lean` do what `printed` says.
-/

namespace Ohcount.Mem
open Ohcount.Cli

section
variable {env : Env} {raw : String → Option Bytes → Int → List Entity} {al : Alloc} {disk : Disk}

/-! ### Loops over the files -/

/-- What is done with a file is what `f` says. -/
def Body (f : SourceFile → Option (SourceFile × List Out × Nat)) (body : Ptr → M (List Out)) : Prop :=
  ∀ q s s' o n, SizeOk s → f s = some (s', o, n) → Does (body q) (File q s) o (Blocks n ⋆ File q s')

theorem forFiles_does {f : SourceFile → Option (SourceFile × List Out × Nat)} {body : Ptr → M (List Out)} (hb : Body f body) (p : Ptr) (ls : List String) :
    ∀ (xs2 xs1 : List (Ptr × Ptr)) (ss2 ss1 ss2' : List SourceFile) (o : List Out) (n : Nat), xs1.length = ss1.length → (∀ s ∈ ss2, SizeOk s) →
    forAll f ss2 = some (ss2', o, n) →
    Does (forFiles body (headPtr xs2)) (Spine p (xs1 ++ xs2) ls ⋆ FilesAt (xs1 ++ xs2) (ss1 ++ ss2)) o
      (Blocks n ⋆ Spine p (xs1 ++ xs2) ls ⋆ FilesAt (xs1 ++ xs2) (ss1 ++ ss2'))
  | [], xs1, [], ss1, ss2', o, n, hl, hs, h => by
    rw [forFiles, show headPtr [] = 0 from rfl, if_pos rfl]
    injection h with h
    injection h with h1 h
    injection h with h2 h3
    rw [← h1, ← h2, ← h3]
    exact Triple.pure fun h e => ⟨rfl, none_lost h e⟩
  | [], xs1, v :: vs2, vs1, _, _, _, hl, _, _ => by
    refine Triple.know (φ := False) (star_ne' fun h c _ => ?_) fun h => h.elim
    have := c.length
    simp at this
    omega
  | x :: xs2, xs1, [], vs1, _, _, _, hl, _, _ => by
    refine Triple.know (φ := False) (star_ne' fun h c _ => ?_) fun h => h.elim
    have := c.length
    simp at this
    omega
  | x :: xs2, xs1, s :: ss2, ss1, ss2', o, n, hl, hs, h => by
    unfold forAll at h
    obtain ⟨⟨s', o1, n1⟩, h1, h⟩ := Option.bind_eq_some_iff.mp h
    obtain ⟨⟨ss', o2, n2⟩, h2, h⟩ := Option.bind_eq_some_iff.mp h
    injection h with h
    injection h with e1 h
    injection h with e2 e3
    dsimp only at e1 e2 e3
    subst e1 e2 e3
    have ih := forFiles_does hb p ls xs2 (xs1 ++ [x]) ss2 (ss1 ++ [s']) ss' o2 n2 (by simp [hl]) (fun t ht => hs t (by simp [ht])) h2
    rw [List.append_assoc, List.append_assoc, List.append_assoc] at ih
    have hc : ∀ s, FilesAt (xs1 ++ x :: xs2) (ss1 ++ s :: ss2) = File x.2 s ⋆ FilesAt xs1 ss1 ⋆ FilesAt xs2 ss2 := fun s => by
      rw [FilesAt.append hl]
      show _ ⋆ (File x.2 s ⋆ _) = _
      ac_rfl
    refine Triple.know (star_ne fun h s => s.ne) fun hx => ?_
    rw [forFiles, show headPtr (x :: xs2) = x.1 from rfl, if_neg hx]
    refine Triple.stepThen rfl (getNth_does p xs1 x xs2 ls) fun n hn => ?_
    rw [hn.1]
    refine Does.step (A := File x.2 s) (F := Spine p (xs1 ++ x :: xs2) ls ⋆ FilesAt xs1 ss1 ⋆ FilesAt xs2 ss2)
      (by rw [hc]; ac_rfl) (hb x.2 s s' o1 n1 (hs s (by simp)) h1) ?_
    refine Triple.stepThen (A := Spine p (xs1 ++ x :: xs2) ls) (F := Blocks n1 ⋆ FilesAt (xs1 ++ x :: xs2) (ss1 ++ s' :: ss2))
      (by rw [hc]; ac_rfl) (getNth_does p xs1 x xs2 ls) fun n hn => ?_
    rw [hn.2.1]
    refine Does.step (A := Spine p (xs1 ++ x :: xs2) ls ⋆ FilesAt (xs1 ++ x :: xs2) (ss1 ++ s' :: ss2)) (F := Blocks n1) (by ac_rfl) ih ?_
    refine Triple.pure fun h e => ⟨rfl, ?_⟩
    rw [star_comm] at e
    exact lose h e

theorem overFiles_does {f : SourceFile → Option (SourceFile × List Out × Nat)} {body : Ptr → M (List Out)} (hb : Body f body) (p : Ptr)
    (ss ss' : List SourceFile) (o : List Out) (n : Nat) (hs : ∀ s ∈ ss, SizeOk s) (h : forAll f ss = some (ss', o, n)) :
    Does (overFiles body p) (Files p ss) o (Blocks n ⋆ Files p ss') := by
  refine Triple.ex fun xs => Triple.ex fun ls => ?_
  unfold overFiles
  refine Triple.stepThen rfl (getHead_does p xs ls) fun n hn => ?_
  rw [hn]
  refine Triple.post (forFiles_does hb p ls xs [] ss [] ss' o _ rfl hs h) fun _ h e => ⟨e.1, ?_⟩
  obtain ⟨h1, h2, d, e, a, b⟩ := e.2
  exact ⟨h1, h2, d, e, a, xs, ls, b⟩

theorem countFrom_does (p : Ptr) (ls : List String) : ∀ (xs2 xs1 : List (Ptr × Ptr)) (n : Nat),
    Does (countFrom n (headPtr xs2)) (Spine p (xs1 ++ xs2) ls) (n + xs2.length) (Spine p (xs1 ++ xs2) ls)
  | [], xs1, n => by
    rw [countFrom, show headPtr [] = 0 from rfl, if_pos rfl]
    exact Does.pure _ _
  | x :: xs2, xs1, n => by
    refine Triple.know (fun h s => s.ne) fun hx => ?_
    rw [countFrom, show headPtr (x :: xs2) = x.1 from rfl, if_neg hx]
    refine (getNth_does p xs1 x xs2 ls).then fun m hm => ?_
    have ih := countFrom_does p ls xs2 (xs1 ++ [x]) (n + 1)
    rw [List.append_assoc] at ih
    rw [hm.2.1, show n + (x :: xs2).length = n + 1 + xs2.length by simp; omega]
    exact ih

theorem count_does (p : Ptr) (ss : List SourceFile) : Does (do let l ← getNode p; countFrom 0 l.head) (Files p ss) ss.length (Files p ss) := by
  refine Triple.ex fun xs => Triple.ex fun ls => ?_
  refine Triple.know (φ := xs.length = ss.length) (star_ne' fun h c _ => c.length) fun hlen => ?_
  refine Triple.stepThen rfl (getHead_does p xs ls) fun n hn => ?_
  rw [hn, ← hlen]
  refine Does.last rfl (countFrom_does p ls xs [] 0) fun h e => ⟨by simp, xs, ls, e⟩

/-! ### What is done with a file -/

theorem FileAt.path (q : Ptr) (s : SourceFile) (k : Slots) : Does (pathOf q) (FileAt q s k) s.filepath (FileAt q s k) := by
  unfold pathOf
  refine (FileAt.get q s k).bind ?_
  refine Does.last (FileAt.atF ..) (getText_does k.fp _) fun h e => ⟨rfl, ?_⟩
  rw [FileAt.atF]
  exact e

theorem FileAt.name (q : Ptr) (s : SourceFile) (k : Slots) : Does (nameOf q) (FileAt q s k) (s.filepath.drop s.parts.filename) (FileAt q s k) := by
  unfold nameOf
  refine (FileAt.get q s k).bind ?_
  refine Does.step (FileAt.atF ..) (getText_does k.fp _) (Triple.pure fun h e => ⟨rfl, ?_⟩)
  rw [FileAt.atF]
  exact e

theorem load_path (s : SourceFile) : (s.loadContents disk).filepath = s.filepath ∧ (s.loadContents disk).parts = s.parts := by
  unfold SourceFile.loadContents
  constructor <;> repeat' (first | split | dsimp only)
  all_goals rfl

theorem size_path (s : SourceFile) : (s.sizeOf disk).filepath = s.filepath ∧ (s.sizeOf disk).parts = s.parts := by
  unfold SourceFile.sizeOf
  split
  · exact load_path s
  · exact ⟨rfl, rfl⟩

theorem detectLanguage_path (s : SourceFile) : (s.detectLanguage env disk).filepath = s.filepath ∧ (s.detectLanguage env disk).parts = s.parts := by
  unfold SourceFile.detectLanguage
  split
  · exact ⟨rfl, rfl⟩
  · split
    dsimp only
    split
    · exact load_path s
    · exact ⟨rfl, rfl⟩

theorem runParser_path (s : SourceFile) : (s.runParser env disk).1.filepath = s.filepath ∧ (s.runParser env disk).1.parts = s.parts := by
  have d := detectLanguage_path (env := env) (disk := disk) s
  unfold SourceFile.runParser
  dsimp only
  split
  · exact d
  · split
    · exact ⟨((size_path _).1.trans (load_path _).1).trans d.1, ((size_path _).2.trans (load_path _).2).trans d.2⟩
    · exact d

theorem doParse_path {s s' : SourceFile} (h : s.doParse env disk = some s') : s'.filepath = s.filepath ∧ s'.parts = s.parts := by
  unfold SourceFile.doParse at h
  cases hs : s.parsed with
  | some pls =>
    rw [hs] at h
    injection h with h
    rw [h]; exact ⟨rfl, rfl⟩
  | none =>
    rw [hs] at h
    dsimp only at h
    obtain ⟨pls, _, h⟩ := Option.bind_eq_some_iff.mp h
    injection h with h
    rw [← h]
    exact runParser_path s

theorem detectOne_does (hal : Good al) (ok : EnvOk env) : Body (detectFor env disk) (detectOne env al disk) := by
  intro q s s' o n hs h
  injection h with h
  injection h with h1 h
  injection h with h2 h3
  subst h1 h2 h3
  refine Triple.ex fun k => ?_
  unfold detectOne
  refine (fileLanguage_does hal ok q s k).then fun l hl => ?_
  refine Triple.ex fun c => ?_
  refine (FileAt.path q _ _).bind (Triple.pure fun h e => ⟨by rw [hl, (detectLanguage_path s).1], none_lost h ⟨_, e⟩⟩)

theorem entityRun_does (hal : Good al) (ok : EnvOk env) (p : Ptr) (s : SourceFile) (k : Slots) :
    Triple (entityRun env raw al disk p) (FileAt p s k)
      (fun rs h => rs = (entitiesOf env raw disk s).2 ∧ (ex fun q => FileAt p (entitiesOf env raw disk s).1 { k with cp := q }) h) := by
  unfold entityRun
  refine (fileLanguage_does hal ok p s k).then fun l hl => ?_
  refine Triple.ex fun q => ?_
  have hr : ∀ l, (s.detectLanguage env disk).language = l → entitiesOf env raw disk s = match l with
      | none => (s.detectLanguage env disk, [])
      | some lang =>
        if env.hasParser lang then
          let s2 := ((s.detectLanguage env disk).loadContents disk).sizeOf disk
          (s2, raw lang s2.contents s2.size)
        else (s.detectLanguage env disk, []) := by intro l e; subst e; rfl
  replace hr := hr l hl.symm
  cases l with
  | none =>
    rw [hr]
    exact Triple.pure fun _ e => ⟨rfl, q, e⟩
  | some lang =>
    by_cases hp : env.hasParser lang = true
    · simp only [if_pos hp] at hr ⊢
      rw [hr]
      unfold entityCall
      refine Triple.bind (fileContents_does hal p _ _) fun q => ?_
      rw [load_sizeOf]
      refine (fileSize_same p _ _ (load_size _)).bind ?_
      refine Does.step (FileAt.atC ..) (getTextOpt_does q _) ?_
      refine Triple.pure fun h e => ⟨rfl, q, ?_⟩
      show FileAt _ _ _ h
      rw [FileAt.atC]
      exact e
    · simp only [if_neg hp] at hr ⊢
      rw [hr]
      exact Triple.pure fun _ e => ⟨rfl, q, e⟩

theorem rawOne_does (hal : Good al) (ok : EnvOk env) : Body (rawFor env raw disk) (rawOne env raw al disk) := by
  intro q s s' o n hs h
  injection h with h
  injection h with h1 h
  injection h with h2 h3
  subst h1 h2 h3
  refine Triple.ex fun k => ?_
  unfold rawOne
  refine (entityRun_does hal ok q s k).then fun l hl => ?_
  rw [hl]
  exact Triple.ex fun c => Triple.pure fun h e => ⟨rfl, none_lost h ⟨_, e⟩⟩

theorem annotateLine_does (q : Ptr) (s : SourceFile) (k : Slots) (r : Report) {t : Bytes} (h : annotateCallback env.junk (s.contents.getD []) r = some t) :
    Does (annotateLine env q r) (FileAt q s k) (.line r.lang r.kind t) (FileAt q s k) := by
  unfold annotateLine
  refine (FileAt.get q s k).bind ?_
  refine Does.step (FileAt.atC ..) (getTextOpt_does k.cp _) ?_
  rw [h]
  refine Triple.pure fun h e => ⟨rfl, ?_⟩
  rw [FileAt.atC]
  exact e

theorem annotateAll_does (q : Ptr) (s : SourceFile) (k : Slots) : ∀ (rs : List Report) (os : List Out), annotateLines env (s.contents.getD []) rs = some os →
    Does (annotateAll env q rs) (FileAt q s k) os (FileAt q s k)
  | [], os, h => by
    injection h with h
    subst h
    exact Does.pure _ _
  | r :: rs, os, h => by
    obtain ⟨t, h1, h⟩ := Option.bind_eq_some_iff.mp h
    obtain ⟨os', h2, h⟩ := Option.bind_eq_some_iff.mp h
    injection h with h
    subst h
    exact (annotateLine_does q s k r h1).bind ((annotateAll_does q s k rs os' h2).bind (Does.pure _ _))

theorem annotateOne_does (hal : Good al) (ok : EnvOk env) : Body (annotateFor env disk) (annotateOne env al disk) := by
  intro q s s' o n hs h
  obtain ⟨os, h1, h⟩ := Option.bind_eq_some_iff.mp h
  injection h with h
  injection h with e1 h
  injection h with e2 e3
  subst e1 e2 e3
  refine Triple.ex fun k => ?_
  unfold annotateOne
  refine (parserRun_does hal ok q s k).then fun rs hr => ?_
  rw [hr]
  refine Triple.ex fun c => ?_
  exact Triple.post (annotateAll_does q _ _ _ _ h1) fun _ h e => ⟨e.1, none_lost h ⟨_, e.2⟩⟩

/-! ### Licenses -/

/-- The rest of a file beside its list of licenses. -/
theorem licensesFrom_does (q : Ptr) (name : Bytes) {Q : Asn} (hname : Does (nameOf q) Q name Q) (p : Ptr) (ls : List String) : ∀ (xs2 xs1 : List (Ptr × Ptr)),
    Does (licensesFrom q (headPtr xs2)) (Spine p (xs1 ++ xs2) ls ⋆ Q) (licenseLines name (ls.drop xs1.length)) (Spine p (xs1 ++ xs2) ls ⋆ Q)
  | [], xs1 => by
    refine Triple.know (φ := ls.drop xs1.length = []) (star_ne fun h s _ => ?_) fun e => ?_
    · have := s.length
      simp at this
      exact List.drop_eq_nil_of_le (by omega)
    · rw [e, licensesFrom, show headPtr [] = 0 from rfl, if_pos rfl]
      exact Does.pure _ _
  | x :: xs2, xs1 => by
    refine Triple.know (star_ne fun h s => s.ne) fun hx => ?_
    refine Triple.know (φ := headPtr xs2 ≠ 0 ↔ xs2 ≠ []) (star_ne fun h s h0 => ?_) fun hx2 => ?_
    · cases xs2 with
      | nil => exact ⟨fun h => absurd rfl h, fun h => absurd rfl h⟩
      | cons y ys =>
        refine ⟨fun _ => by simp, fun _ => ?_⟩
        have : xs1 ++ x :: y :: ys = (xs1 ++ [x]) ++ y :: ys := by simp
        rw [this] at s
        exact s.ne h0
    refine Triple.know (φ := ls.length = (xs1 ++ x :: xs2).length) (star_ne fun h s _ => s.length) fun hlen => ?_
    rw [licensesFrom, show headPtr (x :: xs2) = x.1 from rfl, if_neg hx]
    refine Triple.stepThen rfl (getNth_does p xs1 x xs2 ls) fun n hn => ?_
    have ih := licensesFrom_does q name hname p ls xs2 (xs1 ++ [x])
    rw [List.append_assoc] at ih
    refine Does.step (star_comm ..) hname ?_
    rw [hn.2.1]
    refine Does.step (F := emp) (by rw [star_emp, star_comm]; rfl) ih ?_
    refine Triple.pure fun h e => ?_
    rw [star_emp] at e
    refine ⟨?_, e⟩
    rw [List.length_append]
    have := hn.2.2
    rw [List.getElem?_eq_some_iff] at this
    obtain ⟨hl, e⟩ := this
    rw [List.drop_eq_getElem_cons hl, e]
    show _ = Out.license n.lic (!(ls.drop (xs1.length + 1)).isEmpty) name :: licenseLines name (ls.drop (xs1.length + 1))
    congr 2
    cases xs2 with
    | nil => simp [headPtr]; simp at hlen; omega
    | cons y ys =>
      have : headPtr (y :: ys) ≠ 0 := hx2.mpr (by simp)
      simp [this]
      simp at hlen
      omega

theorem atName (q : Ptr) (s : SourceFile) (k : Slots) (F : Asn) : Does (nameOf q) (cell q (.file (fileRec s k)) ⋆ cell k.fp (.text s.filepath) ⋆ F) (s.filepath.drop s.parts.filename)
    (cell q (.file (fileRec s k)) ⋆ cell k.fp (.text s.filepath) ⋆ F) := by
  unfold nameOf
  refine Does.step rfl (getFile_does q _) ?_
  refine Does.step (star_left_comm ..) (getText_does k.fp _) ?_
  refine Triple.pure fun h e => ⟨rfl, ?_⟩
  rw [star_left_comm] at e
  exact e

theorem atPath (q : Ptr) (s : SourceFile) (k : Slots) (F : Asn) : Does (pathOf q) (cell q (.file (fileRec s k)) ⋆ cell k.fp (.text s.filepath) ⋆ F) s.filepath
    (cell q (.file (fileRec s k)) ⋆ cell k.fp (.text s.filepath) ⋆ F) := by
  unfold pathOf
  refine Does.step rfl (getFile_does q _) ?_
  refine Does.last (star_left_comm ..) (getText_does k.fp _) fun h e => ⟨rfl, ?_⟩
  rw [star_left_comm] at e
  exact e

theorem computeLicenses_path {s s' : SourceFile} (h : s.computeLicenses env disk = some s') : s'.filepath = s.filepath ∧ s'.parts = s.parts ∧ ∃ ls, s'.licenses = some ls := by
  rcases computeLicenses_cases h with ⟨h1, rfl⟩ | ⟨_, s1, pls, h1, _, _, rfl⟩
  · refine ⟨rfl, rfl, ?_⟩
    cases hl : s'.licenses with
    | none => exact absurd hl h1
    | some ls => exact ⟨ls, rfl⟩
  · exact ⟨(doParse_path h1).1, (doParse_path h1).2, _, rfl⟩

theorem computeLoc_path {s s' : SourceFile} (h : s.computeLoc env disk = some s') : s'.filepath = s.filepath := by
  rcases computeLoc_cases h with ⟨_, rfl⟩ | ⟨_, s1, pls, h1, _, _, rfl⟩
  · rfl
  · exact (doParse_path h1).1

theorem licensesOne_does (hal : Good al) (ok : EnvOk env) : Body (licensesFor env disk) (licensesOne env al disk) := by
  intro q s s' o n hs h
  obtain ⟨s1, h1, h⟩ := Option.bind_eq_some_iff.mp h
  injection h with h
  injection h with e1 h
  injection h with e2 e3
  subst e1 e2 e3
  obtain ⟨p1, p2, ls, hl⟩ := computeLicenses_path h1
  refine Triple.ex fun k => ?_
  unfold licensesOne
  refine Triple.bind (fileLicenses_does hal ok q s s1 hs h1 k) fun lp => ?_
  refine Triple.ex fun c => Triple.ex fun pp => ?_
  rw [FileAt.atL, hl]
  show Triple _ (Blocks _ ⋆ Lics lp ls ⋆ _) _
  have e : Blocks (licenseLoss s s1) ⋆ Lics lp ls ⋆ cell q (.file (fileRec s1 { k with cp := c, pp := pp, lp := lp })) ⋆ RestL s1 { k with cp := c, pp := pp, lp := lp } =
      Lics lp ls ⋆ cell q (.file (fileRec s1 { k with cp := c, pp := pp, lp := lp })) ⋆ cell k.fp (.text s1.filepath) ⋆
        (Blocks (licenseLoss s s1) ⋆ optText k.dp s1.diskpath ⋆ optText c s1.contents ⋆ optLst plEntry pp s1.parsed ⋆ optLst locEntry k.kp s1.locList) := by
    unfold RestL
    ac_rfl
  rw [e]
  unfold Lics
  rw [ex_star]
  refine Triple.ex fun xs => ?_
  rw [star_assoc]
  refine Triple.fact fun hx => ?_
  refine Triple.stepThen rfl (getHead_does lp xs ls) fun n hn => ?_
  rw [hn]
  refine Triple.post (licensesFrom_does q _ (atName q s1 { k with cp := c, pp := pp, lp := lp } _) lp ls xs []) fun _ h g => ⟨?_, ?_⟩
  · rw [g.1, p1, p2]
    rfl
  · have g := g.2
    have g' : (Lics lp ls ⋆ cell q (.file (fileRec s1 { k with cp := c, pp := pp, lp := lp })) ⋆ cell k.fp (.text s1.filepath) ⋆
        (Blocks (licenseLoss s s1) ⋆ optText k.dp s1.diskpath ⋆ optText c s1.contents ⋆ optLst plEntry pp s1.parsed ⋆ optLst locEntry k.kp s1.locList)) h :=
      star_mono (fun h' e' => ⟨xs, fact_star.mpr ⟨hx, e'⟩⟩) (fun _ e => e) h g
    rw [← e] at g'
    refine star_mono (fun _ e => e) (fun h' e' => ⟨{ k with cp := c, pp := pp, lp := lp }, ?_⟩) h g'
    show FileAt _ _ _ h'
    rw [FileAt.atL, hl]
    exact e'

/-! ### Rows -/

theorem rowsFrom_does (q : Ptr) (path : Bytes) {Q : Asn} (hpath : Does (pathOf q) Q path Q) (p : Ptr) (ls : List String) (xs : List (Ptr × Ptr)) (vs : List Loc)
    (hl : xs.length = vs.length) : ∀ (k i : Nat), i + k = xs.length →
    Does (rowsFrom q (headPtr (xs.drop i))) (Spine p xs ls ⋆ Cells locEntry xs vs ⋆ Q) (((vs.drop i).map rowOf).map (.fileRow · path)) (Spine p xs ls ⋆ Cells locEntry xs vs ⋆ Q)
  | 0, i, hi => by
    rw [rowsFrom, show xs.drop i = [] from List.drop_eq_nil_of_le (by omega), show headPtr [] = 0 from rfl, if_pos rfl,
      show vs.drop i = [] from List.drop_eq_nil_of_le (by omega)]
    exact Does.pure _ _
  | k + 1, i, hi => by
    obtain ⟨z, hz⟩ : ∃ z, xs[i]? = some z := ⟨xs[i], by simp⟩
    obtain ⟨v, hv⟩ : ∃ v, vs[i]? = some v := ⟨vs[i]'(by omega), by simp⟩
    have hd : headPtr (xs.drop i) = z.1 := by
      rw [List.drop_eq_getElem_cons (by omega)]
      obtain ⟨_, e⟩ := List.getElem?_eq_some_iff.mp hz
      exact congrArg Prod.fst e
    have hd2 : vs.drop i = v :: vs.drop (i + 1) := by
      rw [List.drop_eq_getElem_cons (by omega)]
      obtain ⟨_, e⟩ := List.getElem?_eq_some_iff.mp hv
      rw [e]
    refine Triple.know (φ := z.1 ≠ 0) (star_ne fun h s h0 => ?_) fun hz0 => ?_
    · rw [(split_at hz).1] at s
      exact s.ne h0
    rw [rowsFrom, hd, if_neg hz0]
    refine Triple.stepThen rfl (getAt_does p ls hz) fun n hn => ?_
    rw [hn.1]
    refine Does.step (star_left_comm ..) (itemAt_does hz hv) ?_
    refine Does.step (A := Q) (F := Spine p xs ls ⋆ Cells locEntry xs vs) (by ac_rfl) hpath ?_
    rw [hn.2]
    refine Does.step (F := emp) (by rw [star_emp]; ac_rfl) (rowsFrom_does q path hpath p ls xs vs hl k (i + 1) (by omega)) ?_
    rw [star_emp, hd2]
    exact Does.pure _ _

theorem individualOne_does (hal : Good al) (ok : EnvOk env) : Body (individualFor env disk) (individualOne env al disk) := by
  intro q s s' o n hs h
  obtain ⟨s1, h1, h⟩ := Option.bind_eq_some_iff.mp h
  injection h with h
  injection h with e1 h
  injection h with e2 e3
  subst e1 e2 e3
  obtain ⟨l, hl⟩ := computeLoc_some h1
  refine Triple.ex fun k => ?_
  unfold individualOne
  refine Triple.bind (fileLoc_does hal ok q s s1 hs h1 k) fun kp => ?_
  refine Triple.ex fun c => Triple.ex fun pp => ?_
  rw [FileAt.atK, hl]
  show Triple _ (Lst locEntry kp l ⋆ _) _
  refine Does.step rfl (listSort_does _ kp l) ?_
  refine Triple.pre (P' := (ex fun xs => ex fun ls => Spine kp xs ls ⋆ Cells locEntry xs (sortByLanguage l)) ⋆ _) ?_ (star_mono Lst.split fun _ e => e)
  rw [ex_star]
  refine Triple.ex fun xs => ?_
  rw [ex_star]
  refine Triple.ex fun ls => ?_
  rw [star_assoc]
  refine Triple.know (φ := xs.length = (sortByLanguage l).length) (star_ne' (star_ne fun h c _ => c.length)) fun hlen => ?_
  refine Triple.stepThen rfl (getHead_does kp xs ls) fun n hn => ?_
  rw [hn]
  have t := rowsFrom_does q _ (atPath q s1 { k with cp := c, pp := pp, kp := kp }
    (optText k.dp s1.diskpath ⋆ optText c s1.contents ⋆ optLst plEntry pp s1.parsed ⋆ optLics k.lp s1.licenses)) kp ls xs (sortByLanguage l) hlen xs.length 0 (by simp)
  refine Triple.post t fun _ h g => ⟨?_, ?_⟩
  · rw [g.1, computeLoc_path h1]
    rfl
  · refine none_lost h ⟨{ k with cp := c, pp := pp, kp := kp }, ?_⟩
    show FileAt _ _ _ h
    rw [FileAt.atK]
    have g := g.2
    rw [← star_assoc] at g
    exact star_mono (Lst.unsplit) (fun _ e => e) h g

/-! ### The commands -/

theorem listSum_does (f : Loc → Int) (p : Ptr) (vs : List Loc) : Does (listSum locEntry f p) (Lst locEntry p vs) (LocList.sumLoop f vs) (Lst locEntry p vs) := by
  refine Does.ofRead fun h m l fin g => ?_
  obtain ⟨bs, hh, _⟩ := l.whole g
  exact listSum_run fin.1 hh

theorem tableRun_does (p : Ptr) (n : Nat) (vs : List Loc) : Does (tableRun p) (Lst locEntry p vs) ((summaryOf n vs).rows.map .row ++ [.totals (summaryOf n vs).totals]) emp := by
  unfold tableRun
  refine (listSort_does _ p vs).bind ?_
  refine (readList_does p _).bind ?_
  refine (listSum_does _ p _).bind ?_
  refine (listSum_does _ p _).bind ?_
  refine (listSum_does _ p _).bind ?_
  refine (listSum_does _ p _).bind ?_
  refine (listFree_does p _).bind ?_
  refine Triple.pure fun h e => ⟨?_, e⟩
  unfold summaryOf
  rw [List.map_map]
  rfl

theorem summaryRun_does (hal : Good al) (ok : EnvOk env) (p : Ptr) (ss : List SourceFile) (r : Summary) (hs : ∀ s ∈ ss, SizeOk s) (h : summary env disk ss = some r) :
    Triple (summaryRun env al disk p) (Files p ss) (fun o h => o = summaryLines r ∧ (ex fun ss' => Files p ss') h) := by
  obtain ⟨out, h1, rfl⟩ := Option.map_eq_some_iff.mp h
  obtain ⟨ss', h2⟩ := analyze_count h1
  unfold summaryRun
  rw [← bind_assoc]
  refine (count_does p ss).bind ?_
  refine Triple.bind (filesAnalyze_does hal ok p ss ss' out hs h2 h1) fun q => ?_
  refine Does.step rfl (tableRun_does q ss.length out) ?_
  refine Triple.pure fun h e => ⟨rfl, ss', ?_⟩
  rw [emp_star] at e
  exact e

theorem individual_all : ∀ {ss : List SourceFile} {r : List (Bytes × List Row)}, individualLoop env disk ss = some r →
    ∃ ss', forAll (individualFor env disk) ss = some (ss', r.flatMap fun x => x.2.map (.fileRow · x.1), 0)
  | [], _, h => by
    injection h with h
    subst h
    exact ⟨[], rfl⟩
  | s :: ss, _, h => by
    unfold individualLoop at h
    obtain ⟨s', h1, h⟩ := Option.bind_eq_some_iff.mp h
    obtain ⟨r, h2, h⟩ := Option.bind_eq_some_iff.mp h
    injection h with h
    subst h
    obtain ⟨ss', h3⟩ := individual_all h2
    refine ⟨{ s' with locList := some (sortByLanguage (s'.locList.getD [])) } :: ss', ?_⟩
    unfold forAll individualFor
    rw [h1, Option.bind_some, Option.bind_some]
    unfold individualFor at h3
    rw [h3]
    rfl

theorem individualRun_does (hal : Good al) (ok : EnvOk env) (p : Ptr) (ss : List SourceFile) (r : Nat × List (Bytes × List Row)) (hs : ∀ s ∈ ss, SizeOk s)
    (h : individual env disk ss = some r) :
    Triple (individualRun env al disk p) (Files p ss) (fun o h => o = individualLines r ∧ (Blocks 0 ⋆ ex fun ss' => Files p ss') h) := by
  obtain ⟨out, h1, rfl⟩ := Option.map_eq_some_iff.mp h
  obtain ⟨ss', h2⟩ := individual_all h1
  unfold individualRun
  rw [← bind_assoc]
  refine (count_does p ss).bind ?_
  refine (overFiles_does (individualOne_does hal ok) p ss ss' _ 0 hs h2).bind ?_
  exact Triple.pure fun h e => ⟨rfl, star_mono (fun _ e => e) (fun _ e => ⟨ss', e⟩) h e⟩

theorem forAll_total {f : SourceFile → Option (SourceFile × List Out × Nat)} {g : SourceFile → SourceFile} {o : SourceFile → List Out} (hf : ∀ s, f s = some (g s, o s, 0)) :
    ∀ ss : List SourceFile, forAll f ss = some (ss.map g, ss.flatMap o, 0)
  | [] => rfl
  | s :: ss => by
    unfold forAll
    rw [hf, Option.bind_some, forAll_total hf ss]
    rfl

theorem forAll_zero {f : SourceFile → Option (SourceFile × List Out × Nat)} (hf : ∀ s s' o n, f s = some (s', o, n) → n = 0) :
    ∀ {ss ss' : List SourceFile} {o : List Out} {n : Nat}, forAll f ss = some (ss', o, n) → n = 0
  | [], _, _, _, h => by
    injection h with h
    injection h with _ h
    injection h with _ h
    exact h.symm
  | s :: ss, _, _, _, h => by
    unfold forAll at h
    obtain ⟨⟨s', o1, n1⟩, h1, h⟩ := Option.bind_eq_some_iff.mp h
    obtain ⟨⟨ss', o2, n2⟩, h2, h⟩ := Option.bind_eq_some_iff.mp h
    injection h with h
    injection h with _ h
    injection h with _ h
    have a := hf _ _ _ _ h1
    have b := forAll_zero hf h2
    dsimp only at h
    omega

theorem flatMap_one {α β : Type} (f : α → β) : ∀ l : List α, (l.flatMap fun x => [f x]) = l.map f
  | [] => rfl
  | x :: l => congrArg (f x :: ·) (flatMap_one f l)

theorem commandRun_does (hal : Good al) (ok : EnvOk env) (p : Ptr) (ss : List SourceFile) (c : Command) (o : List Out) (n : Nat) (hs : ∀ s ∈ ss, SizeOk s)
    (h : printed env raw disk ss c = some (o, n)) :
    Triple (commandRun env raw al disk p c) (Files p ss) (fun x h => x = o ∧ (Blocks n ⋆ ex fun ss' => Files p ss') h) := by
  have some_files : ∀ {ss' : List SourceFile} {n : Nat} (h : Mem), (Blocks n ⋆ Files p ss') h → (Blocks n ⋆ ex fun ss' => Files p ss') h :=
    fun h e => star_mono (fun _ e => e) (fun _ e => ⟨_, e⟩) h e
  unfold printed at h
  cases c with
  | annotate =>
    obtain ⟨⟨ss', o', n'⟩, h1, h2⟩ := Option.map_eq_some_iff.mp h
    injection h2 with h2 h3
    subst h2 h3
    have hz : n' = 0 := forAll_zero (fun s s' o n h => by
      obtain ⟨os, _, h⟩ := Option.bind_eq_some_iff.mp h
      injection h with h
      injection h with _ h
      injection h with _ h
      exact h.symm) h1
    subst hz
    exact Triple.post (overFiles_does (annotateOne_does hal ok) p ss ss' _ 0 hs h1) fun _ h e => ⟨e.1, some_files h e.2⟩
  | detect =>
    injection h with h
    injection h with h2 h3
    subst h2 h3
    have h1 := forAll_total (f := detectFor env disk) (fun s => rfl) ss
    refine Triple.post (overFiles_does (detectOne_does hal ok) p ss _ _ 0 hs h1) fun _ h e => ⟨?_, some_files h e.2⟩
    rw [e.1]
    unfold detect
    rw [List.map_map]
    exact flatMap_one _ ss
  | help =>
    injection h with h
    injection h with h2 h3
    subst h2 h3
    exact Triple.pure fun h e => ⟨rfl, none_lost h ⟨ss, e⟩⟩
  | individual =>
    obtain ⟨r, h1, h2⟩ := Option.map_eq_some_iff.mp h
    injection h2 with h2 h3
    subst h2 h3
    exact Triple.post (individualRun_does hal ok p ss r hs h1) fun _ _ e => e
  | licenses =>
    obtain ⟨⟨ss', o', n'⟩, h1, h2⟩ := Option.map_eq_some_iff.mp h
    injection h2 with h2 h3
    subst h2 h3
    exact Triple.post (overFiles_does (licensesOne_does hal ok) p ss ss' _ _ hs h1) fun _ h e => ⟨e.1, some_files h e.2⟩
  | rawEntities =>
    injection h with h
    injection h with h2 h3
    subst h2 h3
    have h1 := forAll_total (f := rawFor env raw disk) (fun s => rfl) ss
    exact Triple.post (overFiles_does (rawOne_does hal ok) p ss _ _ 0 hs h1) fun _ h e => ⟨e.1, some_files h e.2⟩
  | summary =>
    obtain ⟨r, h1, h2⟩ := Option.map_eq_some_iff.mp h
    injection h2 with h2 h3
    subst h2 h3
    exact Triple.post (summaryRun_does hal ok p ss r hs h1) fun _ h e => ⟨e.1, none_lost h e.2⟩

/-! ### `main` -/

theorem addPaths_bad (before : Byte) (fs : Fs) : ∀ (paths : List Bytes) (ss : List SourceFile) (bad : List Bytes),
    addPaths before fs paths (ss, bad) = ((addPaths before fs paths (ss, [])).1, bad ++ (addPaths before fs paths (ss, [])).2)
  | [], ss, bad => by simp [addPaths]
  | a :: rest, ss, bad => by
    unfold addPaths
    split
    · exact addPaths_bad before fs rest _ bad
    · split
      · exact addPaths_bad before fs rest _ bad
      · rw [addPaths_bad before fs rest ss (bad ++ [a]), addPaths_bad before fs rest ss ([] ++ [a])]
        simp

theorem pathsRun_does (hal : Good al) (before : Byte) (fs : Fs) (p : Ptr) : ∀ (paths : List Bytes) (ss : List SourceFile),
    Does (pathsRun al before fs p paths) (Files p ss) ((addPaths before fs paths (ss, [])).2.map .bad) (Files p (addPaths before fs paths (ss, [])).1)
  | [], ss => Does.pure _ _
  | a :: rest, ss => by
    unfold pathsRun addPaths addDir
    cases hd : fs.openDir a with
    | some entries => exact (filesAddAll_does hal before p _ ss).bind (pathsRun_does hal before fs p rest _)
    | none =>
      dsimp only
      split
      · exact (filesAdd_does hal before p ss a).bind (pathsRun_does hal before fs p rest _)
      · rw [addPaths_bad]
        exact (pathsRun_does hal before fs p rest ss).bind (Does.pure _ _)

theorem hereRun_does (hal : Good al) (before : Byte) (fs : Fs) (p : Ptr) (ss : List SourceFile) :
    Does (hereRun al before fs p) (Files p ss) () (Files p (addDir before fs ss [chDot])) := by
  unfold hereRun addDir
  cases fs.openDir [chDot] with
  | some entries => exact filesAddAll_does hal before p _ ss
  | none => exact Does.pure _ _

theorem SizeOk.new (before : Byte) (path : Bytes) : SizeOk (SourceFile.new before path) := fun _ h => nomatch h

theorem SizeOk.addAll (before : Byte) : ∀ (paths : List Bytes) (ss : List SourceFile), (∀ s ∈ ss, SizeOk s) → ∀ s ∈ paths.foldl (listAddFile before) ss, SizeOk s
  | [], _, h => h
  | p :: paths, ss, h => SizeOk.addAll before paths _ fun s hs => by
    rcases List.mem_append.mp hs with hs | hs
    · exact h s hs
    · rw [List.mem_singleton.mp hs]
      exact SizeOk.new before p

theorem SizeOk.addDir (before : Byte) (fs : Fs) (ss : List SourceFile) (d : Bytes) (h : ∀ s ∈ ss, SizeOk s) : ∀ s ∈ Cli.addDir before fs ss d, SizeOk s := by
  unfold Cli.addDir
  split
  · exact SizeOk.addAll before _ ss h
  · exact h

theorem SizeOk.addPaths (before : Byte) (fs : Fs) : ∀ (paths : List Bytes) (v : List SourceFile × List Bytes), (∀ s ∈ v.1, SizeOk s) →
    ∀ s ∈ (Cli.addPaths before fs paths v).1, SizeOk s
  | [], _, h => h
  | a :: rest, (ss, bad), h => by
    unfold Cli.addPaths
    split
    · exact SizeOk.addPaths before fs rest _ (SizeOk.addDir before fs ss a h)
    · split
      · exact SizeOk.addPaths before fs rest _ (SizeOk.addAll before [a] ss h)
      · exact SizeOk.addPaths before fs rest _ h

theorem SizeOk.plan (before : Byte) (fs : Fs) (argv : List Bytes) : ∀ s ∈ (Cli.plan before fs argv).files, SizeOk s := by
  refine SizeOk.addPaths before fs _ _ ?_
  show ∀ s ∈ (if firstPath argv = argv.length then Cli.addDir before fs [] [chDot] else []), SizeOk s
  split
  · exact SizeOk.addDir before fs [] _ fun s hs => nomatch hs
  · exact fun s hs => nomatch hs

theorem mainRun_does (hal : Good al) (ok : EnvOk env) (before : Byte) (fs : Fs) (argv : List Bytes) (o : List Out) (n : Nat)
    (h : program env raw disk before fs argv = some (o, n)) : Does (mainRun env raw al disk before fs argv) emp o (Blocks n) := by
  obtain ⟨⟨o', n'⟩, h1, h2⟩ := Option.map_eq_some_iff.mp h
  injection h2 with h2 h3
  subst h2 h3
  unfold mainRun
  refine Triple.bind (filesNew_does hal) fun p => ?_
  have t1 : Does (onlyIf (firstPath argv = argv.length) (hereRun al before fs p)) (Files p []) ()
      (Files p (if firstPath argv = argv.length then addDir before fs [] [chDot] else [])) := by
    unfold onlyIf
    split
    · exact hereRun_does hal before fs p []
    · exact Does.pure _ _
  refine t1.bind ?_
  refine (pathsRun_does hal before fs p _ _).bind ?_
  refine (commandRun_does hal ok p _ _ o' n' (SizeOk.plan before fs argv) h1).then fun x hx => ?_
  rw [hx, star_comm, ex_star]
  refine Triple.ex fun ss' => ?_
  refine Does.step rfl (filesFree_does p ss') ?_
  rw [emp_star]
  exact Does.pure _ _

end
end Ohcount.Mem
