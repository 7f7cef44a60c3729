import Verif.MemSpine

/-!
What each function of `MemFile.lean` does to the memory of a source file.
-/

namespace Ohcount.Mem

/-! ### What is in memory for a source file -/

def optText (p : Ptr) : Option Bytes → Asn
  | none => fact (p = 0)
  | some b => cell p (.text b)

def optLst {V : Type} (E : Entry V) (p : Ptr) : Option (List V) → Asn
  | none => fact (p = 0)
  | some vs => Lst E p vs

/-- A list of licenses, whose nodes have no items. -/
def Lics (p : Ptr) (ls : List String) : Asn := ex fun xs => fact (∀ x ∈ xs, x.2 = 0) ⋆ Spine p xs ls

def optLics (p : Ptr) : Option (List String) → Asn
  | none => fact (p = 0)
  | some ls => Lics p ls

/-- The pointers in a source file: to `filepath`, `diskpath`, `contents`, `parsed_language_list`, `license_list` and `loc_list`. -/
structure Slots where
  fp : Ptr
  dp : Ptr
  cp : Ptr
  pp : Ptr
  lp : Ptr
  kp : Ptr

def fileRec (s : SourceFile) (k : Slots) : FileRec :=
  { filepath := k.fp, diskpath := k.dp, contents := k.cp, size := s.size, language := s.language, detected := s.languageDetected,
    parsed := k.pp, licenses := k.lp, locs := k.kp, parts := s.parts }

/-- What a source file points to. -/
def Parts (s : SourceFile) (k : Slots) : Asn :=
  cell k.fp (.text s.filepath) ⋆ optText k.dp s.diskpath ⋆ optText k.cp s.contents ⋆ optLst plEntry k.pp s.parsed ⋆ optLics k.lp s.licenses ⋆
    optLst locEntry k.kp s.locList

/-- The source file `s` at `p`. -/
def FileAt (p : Ptr) (s : SourceFile) (k : Slots) : Asn := cell p (.file (fileRec s k)) ⋆ Parts s k

def File (p : Ptr) (s : SourceFile) : Asn := ex fun k => FileAt p s k

/-! ### Blocks -/

theorem getText_does (p : Ptr) (b : Bytes) : Does (getText p) (cell p (.text b)) b (cell p (.text b)) :=
  Does.ofRead fun _ _ e _ g => by unfold getText; rw [g _ _ (cell_at e)]

theorem getFile_does (p : Ptr) (f : FileRec) : Does (getFile p) (cell p (.file f)) f (cell p (.file f)) :=
  Does.ofRead fun _ _ e _ g => by unfold getFile; rw [g _ _ (cell_at e)]

theorem setFile_does (p : Ptr) (f f' : FileRec) : Does (setFile p f') (cell p (.file f)) () (cell p (.file f')) :=
  write_does fun m h => by unfold setFile; rw [h]

theorem setItem_does {V : Type} (E : Entry V) (p : Ptr) (v v' : V) : Does (setItem E p v') (cell p (E.cell v)) () (cell p (E.cell v')) :=
  write_does fun _ => setItem_run E

theorem itemNew_does {V : Type} (E : Entry V) {al : Alloc} (hal : Good al) (v : V) : Triple (itemNew E al v) emp (fun p => cell p (E.cell v)) :=
  malloc_does hal _

theorem optText_null {p : Ptr} {o : Option Bytes} : ∀ h, optText p o h → h 0 = none → (p = 0 ↔ o = none) := by
  intro h e h0
  cases o with
  | none => simp [(show h = nothing ∧ p = 0 from e).2]
  | some b => simp [cell_ne e h0]

theorem optLst_null {V : Type} {E : Entry V} {p : Ptr} {o : Option (List V)} : ∀ h, optLst E p o h → h 0 = none → (p = 0 ↔ o = none) := by
  intro h e h0
  cases o with
  | none => simp [(show h = nothing ∧ p = 0 from e).2]
  | some b => simp [Lst.ne e h0]

theorem Lics.ne {p : Ptr} {ls : List String} {h : Mem} (l : Lics p ls h) (h0 : h 0 = none) : p ≠ 0 := by
  obtain ⟨xs, l⟩ := l
  exact (fact_star.mp l).2.ne_head h0

theorem optLics_null {p : Ptr} {o : Option (List String)} : ∀ h, optLics p o h → h 0 = none → (p = 0 ↔ o = none) := by
  intro h e h0
  cases o with
  | none => simp [(show h = nothing ∧ p = 0 from e).2]
  | some b => simp [Lics.ne e h0]

theorem star_ne' {P Q : Asn} {φ : Prop} (k : ∀ h, Q h → h 0 = none → φ) : ∀ h, (P ⋆ Q) h → h 0 = none → φ := by
  rw [star_comm]
  exact star_ne k

/-- Which pointers are NULL. -/
theorem Parts.null {s : SourceFile} {k : Slots} : ∀ h, Parts s k h → h 0 = none → (k.dp = 0 ↔ s.diskpath = none) ∧ (k.cp = 0 ↔ s.contents = none) ∧
    (k.pp = 0 ↔ s.parsed = none) ∧ (k.lp = 0 ↔ s.licenses = none) ∧ (k.kp = 0 ↔ s.locList = none) := by
  intro h p h0
  unfold Parts at p
  exact ⟨star_ne' (star_ne optText_null) h p h0, star_ne' (star_ne' (star_ne optText_null)) h p h0,
    star_ne' (star_ne' (star_ne' (star_ne optLst_null))) h p h0, star_ne' (star_ne' (star_ne' (star_ne' (star_ne optLics_null)))) h p h0,
    star_ne' (star_ne' (star_ne' (star_ne' (star_ne' optLst_null)))) h p h0⟩

theorem FileAt.null {p : Ptr} {s : SourceFile} {k : Slots} : ∀ h, FileAt p s k h → h 0 = none → (k.dp = 0 ↔ s.diskpath = none) ∧ (k.cp = 0 ↔ s.contents = none) ∧
    (k.pp = 0 ↔ s.parsed = none) ∧ (k.lp = 0 ↔ s.licenses = none) ∧ (k.kp = 0 ↔ s.locList = none) := star_ne' Parts.null

theorem FileAt.get (p : Ptr) (s : SourceFile) (k : Slots) : Does (getFile p) (FileAt p s k) (fileRec s k) (FileAt p s k) :=
  Does.frame (getFile_does _ _) _

theorem onlyIf_does {c : Prop} [Decidable c] {a : M Unit} {P : Asn} {Q : Unit → Asn} (t : c → Triple a P Q) (e : ¬ c → ∀ h, P h → Q () h) : Triple (onlyIf c a) P Q := by
  unfold onlyIf
  by_cases h : c
  · rw [if_pos h]; exact t h
  · rw [if_neg h]; exact Triple.pure (e h)

theorem ignore_does {a : M Ptr} {P : Asn} {Q : Ptr → Asn} (t : Triple a P Q) : Triple (ignore a) P (fun _ => ex Q) :=
  t.bind fun x => Triple.pure fun _ q => ⟨x, q⟩

/-- `if (p) free(p)` for a string that there may be. -/
theorem freeText_does (p : Ptr) (o : Option Bytes) : Does (onlyIf (p ≠ 0) (free p)) (optText p o) () emp := by
  cases o with
  | none =>
    refine onlyIf_does (fun h => ?_) (fun _ _ h => ⟨rfl, h.1⟩)
    exact Triple.know (φ := False) (fun _ e _ => h e.2) fun h => h.elim
  | some b =>
    refine Triple.know (fun _ => cell_ne) fun hp => ?_
    exact onlyIf_does (fun _ => free_does p _) (fun h => absurd hp h)

theorem star_left_comm (P Q R : Asn) : P ⋆ Q ⋆ R = Q ⋆ P ⋆ R := by ac_rfl

theorem Triple.last {α : Type} {f : M α} {P A F : Asn} {B Q : α → Asn} (hP : P = A ⋆ F) (t : Triple f A B) (hQ : ∀ x h, (B x ⋆ F) h → Q x h) : Triple f P Q := by
  subst hP
  exact (t.frame F).post hQ

theorem Does.last {α : Type} {f : M α} {P A B F : Asn} {v : α} {Q : α → Asn} (hP : P = A ⋆ F) (t : Does f A v B) (hQ : ∀ h, (B ⋆ F) h → Q v h) : Triple f P Q := by
  subst hP
  exact (Does.frame t F).post fun x h ⟨e, q⟩ => e ▸ hQ h q

theorem Triple.then {α β : Type} {f : M α} {g : α → M β} {P Q : Asn} {φ : α → Prop} {R : β → Asn} (t : Triple f P (fun x h => φ x ∧ Q h))
    (t' : ∀ x, φ x → Triple (g x) Q R) : Triple (f >>= g) P R :=
  t.bind fun x h r d fin ⟨e, q⟩ => t' x e h r d fin q

theorem ex_star {γ : Type} (P : γ → Asn) (Q : Asn) : ex P ⋆ Q = ex fun x => P x ⋆ Q := by
  funext h
  refine propext ⟨?_, ?_⟩
  · rintro ⟨h1, h2, d, e, ⟨x, p⟩, q⟩
    exact ⟨x, h1, h2, d, e, p, q⟩
  · rintro ⟨x, h1, h2, d, e, p, q⟩
    exact ⟨h1, h2, d, e, ⟨x, p⟩, q⟩

/-- What is in memory for a source file besides the structure itself and one of the things it points to. -/
def RestD (s : SourceFile) (k : Slots) : Asn :=
  cell k.fp (.text s.filepath) ⋆ optText k.cp s.contents ⋆ optLst plEntry k.pp s.parsed ⋆ optLics k.lp s.licenses ⋆ optLst locEntry k.kp s.locList

def RestC (s : SourceFile) (k : Slots) : Asn :=
  cell k.fp (.text s.filepath) ⋆ optText k.dp s.diskpath ⋆ optLst plEntry k.pp s.parsed ⋆ optLics k.lp s.licenses ⋆ optLst locEntry k.kp s.locList

def RestF (s : SourceFile) (k : Slots) : Asn :=
  optText k.dp s.diskpath ⋆ optText k.cp s.contents ⋆ optLst plEntry k.pp s.parsed ⋆ optLics k.lp s.licenses ⋆ optLst locEntry k.kp s.locList

def RestP (s : SourceFile) (k : Slots) : Asn :=
  cell k.fp (.text s.filepath) ⋆ optText k.dp s.diskpath ⋆ optText k.cp s.contents ⋆ optLics k.lp s.licenses ⋆ optLst locEntry k.kp s.locList

def RestL (s : SourceFile) (k : Slots) : Asn :=
  cell k.fp (.text s.filepath) ⋆ optText k.dp s.diskpath ⋆ optText k.cp s.contents ⋆ optLst plEntry k.pp s.parsed ⋆ optLst locEntry k.kp s.locList

def RestK (s : SourceFile) (k : Slots) : Asn :=
  cell k.fp (.text s.filepath) ⋆ optText k.dp s.diskpath ⋆ optText k.cp s.contents ⋆ optLst plEntry k.pp s.parsed ⋆ optLics k.lp s.licenses

theorem FileAt.atD (p : Ptr) (s : SourceFile) (k : Slots) : FileAt p s k = optText k.dp s.diskpath ⋆ cell p (.file (fileRec s k)) ⋆ RestD s k := by
  unfold FileAt Parts RestD; ac_rfl

theorem FileAt.atC (p : Ptr) (s : SourceFile) (k : Slots) : FileAt p s k = optText k.cp s.contents ⋆ cell p (.file (fileRec s k)) ⋆ RestC s k := by
  unfold FileAt Parts RestC; ac_rfl

theorem FileAt.atF (p : Ptr) (s : SourceFile) (k : Slots) : FileAt p s k = cell k.fp (.text s.filepath) ⋆ cell p (.file (fileRec s k)) ⋆ RestF s k := by
  unfold FileAt Parts RestF; ac_rfl

theorem FileAt.atP (p : Ptr) (s : SourceFile) (k : Slots) : FileAt p s k = optLst plEntry k.pp s.parsed ⋆ cell p (.file (fileRec s k)) ⋆ RestP s k := by
  unfold FileAt Parts RestP; ac_rfl

theorem FileAt.atL (p : Ptr) (s : SourceFile) (k : Slots) : FileAt p s k = optLics k.lp s.licenses ⋆ cell p (.file (fileRec s k)) ⋆ RestL s k := by
  unfold FileAt Parts RestL; ac_rfl

theorem FileAt.atK (p : Ptr) (s : SourceFile) (k : Slots) : FileAt p s k = optLst locEntry k.kp s.locList ⋆ cell p (.file (fileRec s k)) ⋆ RestK s k := by
  unfold FileAt Parts RestK; ac_rfl

/-! ### Simple functions -/

section
variable {env : Env} {al : Alloc} {disk : Disk}

theorem fileNew_does (hal : Good al) (before : Byte) (path : Bytes) : Triple (fileNew al before path) emp (fun p => File p (SourceFile.new before path)) := by
  unfold fileNew
  refine Triple.bind (malloc_does hal _) fun sf => ?_
  refine Triple.step (emp_star _).symm (malloc_does hal _) fun p => ?_
  refine Does.step (star_comm ..) (getFile_does sf _) ?_
  refine (Does.frame (setFile_does sf _ _) _).bind ?_
  refine Triple.pure fun h q => ⟨⟨p, 0, 0, 0, 0, 0⟩, ?_⟩
  show FileAt sf (SourceFile.new before path) ⟨p, 0, 0, 0, 0, 0⟩ h
  have e : FileAt sf (SourceFile.new before path) ⟨p, 0, 0, 0, 0, 0⟩ =
      cell sf (.file { parts := splitPath before path, filepath := p }) ⋆ cell p (.text path) ⋆ fact (0 = 0) ⋆ fact (0 = 0) ⋆ fact (0 = 0) ⋆ fact (0 = 0) ⋆ fact (0 = 0) := rfl
  rw [e, fact_emp rfl, emp_star, emp_star, emp_star, emp_star, star_emp]
  exact q

theorem setDiskpath_does (hal : Good al) (p : Ptr) (s : SourceFile) (t : Ptr) (c : Bytes) :
    Triple (setDiskpath al p t) (File p s ⋆ cell t (.text c)) (fun _ => File p { s with diskpath := some c } ⋆ cell t (.text c)) := by
  unfold File
  rw [ex_star, ex_star]
  refine Triple.ex fun k => ?_
  unfold setDiskpath
  refine Does.step rfl (FileAt.get p s k) ?_
  rw [FileAt.atD, star_assoc, star_assoc]
  refine Does.step rfl (freeText_does k.dp s.diskpath) ?_
  rw [emp_star]
  refine Does.step (A := cell t (.text c)) (F := cell p (.file (fileRec s k)) ⋆ RestD s k) (by ac_rfl) (getText_does t c) ?_
  refine Triple.step (emp_star _).symm (malloc_does hal _) fun q => ?_
  refine Does.last (A := cell p (.file (fileRec s k))) (F := cell q (.text c) ⋆ cell t (.text c) ⋆ RestD s k) (by ac_rfl) (setFile_does p _ _)
    fun h e => ⟨{ k with dp := q }, ?_⟩
  show (FileAt _ _ _ ⋆ _) h
  rw [FileAt.atD, star_assoc, star_assoc]
  rw [star_left_comm, star_comm (cell t _)] at e
  exact e

theorem setContents_does (hal : Good al) (p : Ptr) (s : SourceFile) (t : Ptr) (c : Bytes) :
    Triple (setContents al p t) (File p s ⋆ cell t (.text c)) (fun _ => File p (s.setContents c) ⋆ cell t (.text c)) := by
  unfold File
  rw [ex_star, ex_star]
  refine Triple.ex fun k => ?_
  unfold setContents
  refine Does.step rfl (FileAt.get p s k) ?_
  rw [FileAt.atC, star_assoc, star_assoc]
  refine Does.step rfl (freeText_does k.cp s.contents) ?_
  rw [emp_star]
  refine Does.step (A := cell t (.text c)) (F := cell p (.file (fileRec s k)) ⋆ RestC s k) (by ac_rfl) (getText_does t c) ?_
  refine Triple.step (emp_star _).symm (malloc_does hal _) fun q => ?_
  refine Does.last (A := cell p (.file (fileRec s k))) (F := cell q (.text (c.takeWhile fun b => b != 0)) ⋆ cell t (.text c) ⋆ RestC s k) (by ac_rfl) (setFile_does p _ _)
    fun h e => ⟨{ k with cp := q }, ?_⟩
  show (FileAt _ _ _ ⋆ _) h
  rw [FileAt.atC, star_assoc, star_assoc]
  rw [star_left_comm, star_comm (cell t _)] at e
  exact e

/-- The string that is the path on disk. -/
theorem getPath_does (p : Ptr) (s : SourceFile) (k : Slots) :
    Does (getText (if k.dp ≠ 0 then k.dp else k.fp)) (FileAt p s k) (s.diskpath.getD s.filepath) (FileAt p s k) := by
  refine Triple.know FileAt.null fun hn => ?_
  cases hd : s.diskpath with
  | none =>
    rw [if_neg (fun h => h (hn.1.mpr hd)), FileAt.atF]
    exact Does.frame (getText_does _ _) _
  | some d =>
    rw [if_pos (by rw [Ne, hn.1, hd]; simp), FileAt.atD, hd]
    exact Does.frame (getText_does _ _) _

theorem fileRead_does (hal : Good al) (p : Ptr) (s : SourceFile) (k : Slots) (hc : s.contents = none) :
    Triple (fileRead al disk p (fileRec s k)) (FileAt p s k) (fun _ => ex fun q => FileAt p (s.loadContents disk) { k with cp := q }) := by
  unfold fileRead
  refine (getPath_does p s k).bind ?_
  have hs : ∀ o, disk (s.diskpath.getD s.filepath) = o → s.loadContents disk =
      match o with
      | some (b :: bs) => { s with contents := some (b :: bs), size := (b :: bs).length }
      | _ => { s with contents := none, size := 0 } := by
    intro o ho
    unfold SourceFile.loadContents
    rw [hc]
    dsimp only
    rw [ho]
    cases o with
    | none => rfl
    | some b => cases b <;> rfl
  rw [FileAt.atC, hc]
  show Triple _ (fact (k.cp = 0) ⋆ _) _
  refine Triple.fact fun h0 => ?_
  have done : ∀ f0, f0 = fileRec s { k with cp := f0.contents } →
      Triple (setFile p { fileRec s k with contents := 0, size := 0 }) (cell p (.file f0) ⋆ RestC s k)
      (fun _ => ex fun q => FileAt p { s with contents := none, size := 0 } { k with cp := q }) := by
    intro f0 _
    refine Does.last rfl (setFile_does p _ _) fun h e => ⟨0, ?_⟩
    show FileAt _ _ _ h
    rw [FileAt.atC]
    exact fact_star.mpr ⟨rfl, e⟩
  cases ho : disk (s.diskpath.getD s.filepath) with
  | none =>
    rw [hs _ ho]
    exact done _ rfl
  | some b =>
    dsimp only
    refine Triple.step (emp_star _).symm (malloc_does hal _) fun q => ?_
    refine Does.step (star_left_comm ..) (setFile_does p _ _) ?_
    cases b with
    | nil =>
      rw [if_pos rfl, hs _ ho]
      refine Does.step (star_left_comm ..) (free_does q _) ?_
      rw [emp_star]
      exact done _ rfl
    | cons b bs =>
      rw [if_neg (by simp), hs _ ho]
      refine Does.last rfl (setFile_does p _ _) fun h e => ⟨q, ?_⟩
      rw [star_left_comm] at e
      show FileAt _ _ _ h
      rw [FileAt.atC]
      exact e

theorem Slots.cp_self (k : Slots) : { k with cp := k.cp } = k := rfl

theorem fileContents_does (hal : Good al) (p : Ptr) (s : SourceFile) (k : Slots) :
    Triple (fileContents al disk p) (FileAt p s k) (fun q => FileAt p (s.loadContents disk) { k with cp := q }) := by
  refine Triple.know FileAt.null fun hn => ?_
  unfold fileContents
  refine (FileAt.get p s k).bind ?_
  refine Triple.bind (Q := fun _ => ex fun q => FileAt p (s.loadContents disk) { k with cp := q }) (onlyIf_does (fun hc => ?_) (fun hc h e => ?_)) fun _ => ?_
  · exact fileRead_does hal p s k (hn.2.1.mp hc)
  · refine ⟨k.cp, ?_⟩
    have : s.contents ≠ none := fun e => hc (hn.2.1.mpr e)
    have e' : s.loadContents disk = s := by
      unfold SourceFile.loadContents
      cases hs : s.contents with
      | none => exact absurd hs this
      | some b => rfl
    show FileAt _ _ _ h
    rw [e']
    exact e
  · refine Triple.ex fun q => ?_
    exact (FileAt.get p _ _).bind (Triple.pure fun _ e => e)

theorem fileSize_does (hal : Good al) (p : Ptr) (s : SourceFile) (k : Slots) :
    Triple (fileSize al disk p) (FileAt p s k) (fun n h => n = (s.sizeOf disk).size ∧ (ex fun q => FileAt p (s.sizeOf disk) { k with cp := q }) h) := by
  unfold fileSize
  refine (FileAt.get p s k).bind ?_
  refine Triple.bind (Q := fun _ => ex fun q => FileAt p (s.sizeOf disk) { k with cp := q }) (onlyIf_does (fun hc => ?_) (fun hc h e => ?_)) fun _ => ?_
  · rw [show s.sizeOf disk = s.loadContents disk from if_pos hc]
    exact ignore_does (fileContents_does hal p s k)
  · refine ⟨k.cp, ?_⟩
    show FileAt _ _ _ h
    rw [show s.sizeOf disk = s from if_neg hc]
    exact e
  · refine Triple.ex fun q => ?_
    exact (FileAt.get p _ _).bind (Triple.pure fun _ e => ⟨rfl, q, e⟩)

/-- Once there are contents, or it is known that there are none, nothing is read. -/
theorem fileSize_same (p : Ptr) (s : SourceFile) (k : Slots) (hs : 0 ≤ s.size ∨ s.contents ≠ none) :
    Does (fileSize al disk p) (FileAt p s k) s.size (FileAt p s k) := by
  refine Triple.know FileAt.null fun hn => ?_
  unfold fileSize
  refine (FileAt.get p s k).bind ?_
  refine Does.bind (v := ()) (Q := FileAt p s k) (onlyIf_does (fun hc => ?_) (fun hc h e => ⟨rfl, e⟩)) ?_
  · have hc' : s.size < 0 := hc
    have hne : s.contents ≠ none := by
      rcases hs with hs | hs
      · omega
      · exact hs
    have hcp : (fileRec s k).contents ≠ 0 := fun e => hne (hn.2.1.mp e)
    unfold ignore fileContents
    refine Triple.bind (Q := fun _ => FileAt p s k) ?_ fun _ => Triple.pure fun _ e => ⟨rfl, e⟩
    refine (FileAt.get p s k).bind ?_
    refine Does.bind (v := ()) (Q := FileAt p s k) (onlyIf_does (fun hc => absurd hc hcp) (fun _ _ e => ⟨rfl, e⟩)) ?_
    exact (FileAt.get p s k).bind (Triple.pure fun _ e => e)
  · exact (FileAt.get p s k).bind (Triple.pure fun _ e => ⟨rfl, e⟩)

theorem load_size (s : SourceFile) : 0 ≤ (s.loadContents disk).size ∨ (s.loadContents disk).contents ≠ none := by
  unfold SourceFile.loadContents
  cases hs : s.contents with
  | some b => exact .inr (by simp [hs])
  | none =>
    dsimp only
    split
    · exact .inr (by simp)
    · exact .inl (by simp)
    · exact .inl (by simp)

theorem load_sizeOf (s : SourceFile) : (s.loadContents disk).sizeOf disk = s.loadContents disk := by
  unfold SourceFile.sizeOf
  split
  · rename_i h
    rcases load_size (disk := disk) s with h' | h'
    · omega
    · generalize s.loadContents disk = t at h'
      unfold SourceFile.loadContents
      cases ht : t.contents with
      | none => exact absurd ht h'
      | some b => rfl
  · rfl

theorem setLanguage_does (p : Ptr) (s : SourceFile) (name : String) : Triple (setLanguage env p name) (File p s) (fun _ => File p (s.setLanguage env name)) := by
  refine Triple.ex fun k => ?_
  unfold setLanguage SourceFile.setLanguage
  cases env.knownName name with
  | none => exact Triple.pure fun _ e => ⟨k, e⟩
  | some n =>
    refine (FileAt.get p s k).bind ?_
    exact Does.last rfl (setFile_does p _ _) fun h e => ⟨k, e⟩

theorem getTextOpt_does (p : Ptr) (o : Option Bytes) : Does (getTextOpt p) (optText p o) o (optText p o) := by
  refine Triple.know optText_null fun hn => ?_
  unfold getTextOpt
  cases o with
  | none =>
    rw [if_pos (hn.mpr rfl)]
    exact Does.pure _ _
  | some b =>
    rw [if_neg (by rw [hn]; simp)]
    exact (getText_does p b).bind (Does.pure _ _)

/-- What the detection of languages sees of a file. -/
def seen (s : SourceFile) : SourceFile := { filepath := s.filepath, parts := s.parts, diskpath := s.diskpath, contents := s.contents, size := s.size }

theorem view_does (p : Ptr) (s : SourceFile) (k : Slots) : Does (view p) (FileAt p s k) (seen s) (FileAt p s k) := by
  unfold view
  refine (FileAt.get p s k).bind ?_
  refine Does.bind (v := s.filepath) (Q := FileAt p s k) (by rw [FileAt.atF]; exact Does.frame (getText_does _ _) _) ?_
  refine Does.bind (v := s.diskpath) (Q := FileAt p s k) (by rw [FileAt.atD]; exact Does.frame (getTextOpt_does _ _) _) ?_
  refine Does.bind (v := s.contents) (Q := FileAt p s k) (by rw [FileAt.atC]; exact Does.frame (getTextOpt_does _ _) _) ?_
  exact Does.pure _ _

/-- What is assumed of the detection of languages and of the parsers: detection looks at the path and the contents only, and a parser that is
given no buffer reports no line of code and no comment. -/
structure EnvOk (env : Env) : Prop where
  sees : ∀ s disk, env.detect s disk = env.detect (seen s) disk
  null : ∀ lang n r, r ∈ env.parse lang none n → r.kind = .lblank

theorem fileDetect_does (hal : Good al) (ok : EnvOk env) (p : Ptr) (s : SourceFile) (k : Slots) (hd : s.languageDetected = false) :
    Triple (fileDetect env al disk p) (FileAt p s k) (fun _ => ex fun q => FileAt p (s.detectLanguage env disk) { k with cp := q }) := by
  unfold fileDetect
  refine (view_does p s k).bind ?_
  rw [← ok.sees s disk]
  refine Triple.bind (Q := fun _ => ex fun q => FileAt p (if (env.detect s disk).2 then s.loadContents disk else s) { k with cp := q })
    (onlyIf_does (fun hc => ?_) (fun hc h e => ?_)) fun _ => ?_
  · rw [if_pos hc]
    exact ignore_does (fileContents_does hal p s k)
  · refine ⟨k.cp, ?_⟩
    show FileAt _ _ _ h
    rw [if_neg hc]
    exact e
  · refine Triple.ex fun q => ?_
    refine (FileAt.get p _ _).bind ?_
    refine Does.last rfl (setFile_does p _ _) fun h e => ⟨q, ?_⟩
    show FileAt _ _ _ h
    unfold SourceFile.detectLanguage
    rw [hd, if_neg (by simp)]
    exact e

theorem fileLanguage_does (hal : Good al) (ok : EnvOk env) (p : Ptr) (s : SourceFile) (k : Slots) :
    Triple (fileLanguage env al disk p) (FileAt p s k)
      (fun l h => l = (s.detectLanguage env disk).language ∧ (ex fun q => FileAt p (s.detectLanguage env disk) { k with cp := q }) h) := by
  unfold fileLanguage
  refine (FileAt.get p s k).bind ?_
  refine Triple.bind (Q := fun _ => ex fun q => FileAt p (s.detectLanguage env disk) { k with cp := q }) (onlyIf_does (fun hc => ?_) (fun hc h e => ?_)) fun _ => ?_
  · exact fileDetect_does hal ok p s k hc
  · refine ⟨k.cp, ?_⟩
    show FileAt _ _ _ h
    have : s.languageDetected = true := by
      cases e : s.languageDetected with
      | true => rfl
      | false => exact absurd e hc
    unfold SourceFile.detectLanguage
    rw [if_pos this]
    exact e
  · refine Triple.ex fun q => ?_
    exact (FileAt.get p _ _).bind (Triple.pure fun _ e => ⟨rfl, q, e⟩)

theorem parserRun_does (hal : Good al) (ok : EnvOk env) (p : Ptr) (s : SourceFile) (k : Slots) :
    Triple (parserRun env al disk p) (FileAt p s k)
      (fun rs h => rs = (s.runParser env disk).2 ∧ (ex fun q => FileAt p (s.runParser env disk).1 { k with cp := q }) h) := by
  unfold parserRun
  refine (fileLanguage_does hal ok p s k).then fun l hl => ?_
  refine Triple.ex fun q => ?_
  have hr : ∀ l, (s.detectLanguage env disk).language = l → s.runParser env disk = match l with
      | none => (s.detectLanguage env disk, [])
      | some lang =>
        if env.hasParser lang then
          let s2 := ((s.detectLanguage env disk).loadContents disk).sizeOf disk
          (s2, env.parse lang s2.contents s2.size)
        else (s.detectLanguage env disk, []) := by intro l e; subst e; rfl
  replace hr := hr l hl.symm
  cases l with
  | none =>
    rw [hr]
    exact Triple.pure fun _ e => ⟨rfl, q, e⟩
  | some lang =>
    by_cases hp : env.hasParser lang = true
    · simp only [if_pos hp] at hr ⊢
      rw [hr]
      unfold parserCall
      refine Triple.bind (fileContents_does hal p _ _) fun q => ?_
      rw [load_sizeOf]
      refine (fileSize_same p _ _ (load_size _)).bind ?_
      refine Does.step (FileAt.atC ..) (getTextOpt_does q _) ?_
      refine Triple.pure fun h e => ⟨rfl, q, ?_⟩
      show FileAt _ _ _ h
      rw [FileAt.atC]
      exact e
    · simp only [if_neg hp] at hr ⊢
      rw [hr]
      exact Triple.pure fun _ e => ⟨rfl, q, e⟩

/-! ### Recording lines -/

/-- A list of parsed languages, the entry at `q` of which is looked at. -/
def Mid (p : Ptr) (vs1 : List ParsedLanguage) (v : ParsedLanguage) (vs2 : List ParsedLanguage) (q : Ptr) : Asn :=
  ex fun xs1 => ex fun b => ex fun xs2 => ex fun ls => fact (xs1.length = vs1.length) ⋆ cell q (.pl v) ⋆ Spine p (xs1 ++ (b, q) :: xs2) ls ⋆
    Cells plEntry xs1 vs1 ⋆ Cells plEntry xs2 vs2

theorem Mid.toLst {p : Ptr} {vs1 vs2 : List ParsedLanguage} {v : ParsedLanguage} {q : Ptr} : ∀ h, Mid p vs1 v vs2 q h → Lst plEntry p (vs1 ++ v :: vs2) h := by
  rintro h ⟨xs1, b, xs2, ls, e⟩
  obtain ⟨hl, e⟩ := fact_star.mp e
  refine Lst.unsplit (xs := xs1 ++ (b, q) :: xs2) (ls := ls) h ?_
  rw [Cells.append hl]
  have : cell q (.pl v) ⋆ Spine p (xs1 ++ (b, q) :: xs2) ls ⋆ Cells plEntry xs1 vs1 ⋆ Cells plEntry xs2 vs2 =
    Spine p (xs1 ++ (b, q) :: xs2) ls ⋆ Cells plEntry xs1 vs1 ⋆ cell q (.pl v) ⋆ Cells plEntry xs2 vs2 := by ac_rfl
  rw [this] at e
  exact e

theorem getFrom_hit {V : Type} {E : Entry V} {lang : String} {m : Mem} (h0 : m 0 = none) : ∀ {xs1 : List (Ptr × Ptr)} {x : Ptr × Ptr} {xs2 : List (Ptr × Ptr)}
    {vs1 : List V} {v : V} {vs2 : List V} {p : Ptr}, Chain m p (xs1 ++ x :: xs2) → Items E m (xs1 ++ x :: xs2) (vs1 ++ v :: vs2) → xs1.length = vs1.length →
    (∀ u ∈ vs1, E.lang u ≠ lang) → E.lang v = lang → getFrom E lang p m = some (x.2, m)
  | [], x, xs2, [], v, vs2, p, h, h', _, _, hv => by
    cases h' with
    | cons g hs =>
      obtain ⟨h1, n, h2, h3, _⟩ := h
      have hp : p ≠ 0 := fun e => by rw [← h1, e, h0] at h2; cases h2
      rw [getFrom, if_neg hp, bind_run (getNode_run (h1 ▸ h2)), bind_run (getItem_run E (h3 ▸ g)), if_pos hv, h3]
      rfl
  | y :: xs1, x, xs2, u :: vs1, v, vs2, p, h, h', hl, hu, hv => by
    cases h' with
    | cons g hs =>
      obtain ⟨h1, n, h2, h3, h4⟩ := h
      have hp : p ≠ 0 := fun e => by rw [← h1, e, h0] at h2; cases h2
      rw [getFrom, if_neg hp, bind_run (getNode_run (h1 ▸ h2)), bind_run (getItem_run E (h3 ▸ g)), if_neg (hu u (by simp))]
      exact getFrom_hit h0 h4 hs (by simpa using hl) (fun u hu' => hu u (by simp [hu'])) hv
  | [], _, _, _ :: _, _, _, _, _, _, h, _, _ => by simp at h
  | _ :: _, _, _, [], _, _, _, _, _, h, _, _ => by simp at h

theorem getFrom_miss {V : Type} {E : Entry V} {lang : String} {m : Mem} (h0 : m 0 = none) {xs : List (Ptr × Ptr)} {vs : List V} {p : Ptr} (h : Chain m p xs)
    (h' : Items E m xs vs) (hv : ∀ u ∈ vs, E.lang u ≠ lang) : getFrom E lang p m = some (0, m) := by
  obtain ⟨q, k1, k2⟩ := getFrom_run (lang := lang) h0 h h'
  have : ∀ {vs : List V}, (∀ u ∈ vs, E.lang u ≠ lang) → find E lang vs = none := by
    intro vs hv
    induction vs with
    | nil => rfl
    | cons v vs ih =>
      unfold find
      rw [if_neg (hv v (by simp))]
      exact ih fun u hu => hv u (by simp [hu])
  rw [this hv] at k2
  rw [k1, k2]

/-- The chain and the items in the whole memory. -/
theorem spine_cells {V : Type} {E : Entry V} {p : Ptr} {xs : List (Ptr × Ptr)} {ls : List String} {vs : List V} {h m : Mem}
    (e : (Spine p xs ls ⋆ Cells E xs vs) h) (g : ∀ a c, h a = some c → m a = some c) : Chain m (headPtr xs) xs ∧ Items E m xs vs := by
  obtain ⟨h1, h2, d, e, s, c⟩ := e
  have g1 : ∀ a c, h1 a = some c → m a = some c := fun a c ea => g a c (by rw [e]; simp [join, ea])
  have g2 : ∀ a c, h2 a = some c → m a = some c := fun a c ea => g a c (by
    rw [e]
    rcases d a with e' | e'
    · simp [join, e', ea]
    · rw [ea] at e'; cases e')
  refine ⟨?_, (c.toItems g2).1⟩
  cases xs with
  | nil => rfl
  | cons x xs =>
    have := s.chain (by simp)
    exact this.head ▸ this.congr fun a _ n hn => ⟨n, g1 _ _ hn, rfl, rfl⟩

theorem plSplit (name : String) : ∀ pls : List ParsedLanguage, (∃ vs1 v vs2, pls = vs1 ++ v :: vs2 ∧ (∀ u ∈ vs1, u.name ≠ name) ∧ v.name = name) ∨
    ∀ u ∈ pls, u.name ≠ name
  | [] => .inr (by simp)
  | u :: us => by
    by_cases h : u.name = name
    · exact .inl ⟨[], u, us, rfl, by simp, h⟩
    · rcases plSplit name us with ⟨vs1, v, vs2, e, a, b⟩ | a
      · refine .inl ⟨u :: vs1, v, vs2, by rw [e]; rfl, ?_, b⟩
        intro w hw
        rcases List.mem_cons.mp hw with rfl | hw
        · exact h
        · exact a w hw
      · refine .inr fun w hw => ?_
        rcases List.mem_cons.mp hw with rfl | hw
        · exact h
        · exact a w hw

theorem parserCallback_old (junk : Byte) (text : Bytes) (r : Report) {v : ParsedLanguage} {vs2 : List ParsedLanguage} (hv : v.name = r.lang) :
    ∀ {vs1 : List ParsedLanguage}, (∀ u ∈ vs1, u.name ≠ r.lang) →
    parserCallback junk text (vs1 ++ v :: vs2) r = (recordLine text v r).map fun v' => vs1 ++ v' :: vs2
  | [], _ => by
    show parserCallback junk text (v :: vs2) r = _
    rw [parserCallback, if_pos hv]
    rfl
  | u :: vs1, h => by
    show parserCallback junk text (u :: (vs1 ++ v :: vs2)) r = _
    rw [parserCallback, if_neg (h u (by simp)), parserCallback_old junk text r hv fun w hw => h w (by simp [hw]), Option.map_map]
    rfl

theorem parserCallback_new (junk : Byte) (text : Bytes) (r : Report) : ∀ {vs : List ParsedLanguage}, (∀ u ∈ vs, u.name ≠ r.lang) →
    parserCallback junk text vs r = (recordLine text (ParsedLanguage.new junk r.lang text.length) r).map fun v' => vs ++ [v']
  | [], _ => by rw [parserCallback]; rfl
  | u :: vs, h => by
    rw [parserCallback, if_neg (h u (by simp)), parserCallback_new junk text r fun w hw => h w (by simp [hw]), Option.map_map]
    rfl

/-- The entry of a language is found or made. -/
theorem plOf_does (hal : Good al) (p : Ptr) (pls : List ParsedLanguage) (r : Report) (text : Bytes) (size : Int) (hs : size = text.length) :
    ∃ vs1 v vs2, parserCallback env.junk text pls r = (recordLine text v r).map (fun v' => vs1 ++ v' :: vs2) ∧
      Triple (plOf env al p r.lang size) (Lst plEntry p pls) (fun q => Mid p vs1 v vs2 q) := by
  have new : Triple (plNew env al r.lang size) emp (fun q => cell q (.pl (ParsedLanguage.new env.junk r.lang text.length))) := by
    unfold plNew
    rw [hs]
    exact itemNew_does plEntry hal _
  rcases plSplit r.lang pls with ⟨vs1, v, vs2, rfl, hu, hv⟩ | hu
  · refine ⟨vs1, v, vs2, parserCallback_old _ _ _ hv hu, ?_⟩
    refine Triple.pre (Triple.ex fun xs => Triple.ex fun ls => ?_) Lst.split
    refine Triple.know (φ := xs.length = (vs1 ++ v :: vs2).length) (star_ne' fun h c _ => c.length) fun hlen => ?_
    obtain ⟨xs1, x, xs2, rfl, hl⟩ : ∃ xs1 x xs2, xs = xs1 ++ x :: xs2 ∧ xs1.length = vs1.length := by
      have h2 : vs1.length < xs.length := by simp at hlen; omega
      exact ⟨xs.take vs1.length, xs[vs1.length], xs.drop (vs1.length + 1), by simp, by simp; omega⟩
    unfold plOf
    have hd : headPtr (xs1 ++ x :: xs2) = headPtr (xs1 ++ x :: xs2) := rfl
    refine Triple.step rfl (getHead_does p _ ls) fun n => ?_
    refine Triple.pre (P' := fact (n.head = headPtr (xs1 ++ x :: xs2)) ⋆ (Spine p (xs1 ++ x :: xs2) ls ⋆ Cells plEntry (xs1 ++ x :: xs2) (vs1 ++ v :: vs2)))
      (Triple.fact fun hh => ?_) ?_
    · refine Triple.know (φ := headPtr (xs1 ++ x :: xs2) ≠ 0) (star_ne fun h s h0 => ?_) fun hne => ?_
      · cases xs1 with
        | nil => exact s.ne h0
        | cons y ys => exact Spine.ne (xs1 := []) (x := y) (xs2 := ys ++ x :: xs2) s h0
      · rw [hh, if_neg hne]
        refine Does.bind (v := x.2) (Q := Spine p (xs1 ++ x :: xs2) ls ⋆ Cells plEntry (xs1 ++ x :: xs2) (vs1 ++ v :: vs2)) ?_ ?_
        · refine Does.ofRead fun h m e fin g => ?_
          obtain ⟨c1, c2⟩ := spine_cells e g
          exact getFrom_hit fin.1 c1 c2 hl hu hv
        · have e : Spine p (xs1 ++ x :: xs2) ls ⋆ Cells plEntry (xs1 ++ x :: xs2) (vs1 ++ v :: vs2) =
              cell x.2 (.pl v) ⋆ Spine p (xs1 ++ (x.1, x.2) :: xs2) ls ⋆ Cells plEntry xs1 vs1 ⋆ Cells plEntry xs2 vs2 := by
            rw [Cells.append hl]
            show _ ⋆ _ ⋆ (cell x.2 (.pl v) ⋆ _) = _
            ac_rfl
          rw [e]
          refine Triple.know (star_ne fun h => cell_ne) fun hx => ?_
          rw [if_neg hx]
          exact Triple.pure fun h q => ⟨xs1, x.1, xs2, ls, fact_star.mpr ⟨hl, q⟩⟩
    · rintro h ⟨h1, h2, d, e, ⟨a, b⟩, c⟩
      exact fact_star.mpr ⟨a, h1, h2, d, e, b, c⟩
  · refine ⟨pls, _, [], parserCallback_new _ _ _ hu, ?_⟩
    refine Triple.pre (Triple.ex fun xs => Triple.ex fun ls => ?_) Lst.split
    refine Triple.know (φ := xs.length = pls.length) (star_ne' fun h c _ => c.length) fun hlen => ?_
    unfold plOf
    refine Triple.step rfl (getHead_does p _ ls) fun n => ?_
    refine Triple.pre (P' := fact (n.head = headPtr xs) ⋆ (Spine p xs ls ⋆ Cells plEntry xs pls)) (Triple.fact fun hh => ?_) ?_
    · rw [hh]
      cases xs with
      | nil =>
        refine Triple.know (φ := ls = []) (star_ne fun h s _ => List.eq_nil_of_length_eq_zero s.length) fun hls => ?_
        subst hls
        rw [if_pos (show headPtr [] = 0 from rfl)]
        have : pls = [] := List.eq_nil_of_length_eq_zero hlen.symm
        subst this
        refine (Triple.frame (first_does new p "") _).post fun q h e => ⟨[], p, [], [""], fact_star.mpr ⟨rfl, ?_⟩⟩
        have e' : (Spine p [(p, q)] [""] ⋆ cell q (.pl (ParsedLanguage.new env.junk r.lang text.length))) ⋆ Cells plEntry [] [] =
          cell q (.pl (ParsedLanguage.new env.junk r.lang text.length)) ⋆ Spine p ([] ++ (p, q) :: []) [""] ⋆ Cells plEntry [] [] ⋆ Cells plEntry [] [] := by
          show _ ⋆ emp = _ ⋆ _ ⋆ emp ⋆ emp
          rw [star_emp, star_emp, star_emp, star_comm]
          rfl
        rw [e'] at e
        exact e
      | cons x xs =>
        refine Triple.know (star_ne fun h s h0 => Spine.ne (xs1 := []) (x := x) (xs2 := xs) s h0) fun hx => ?_
        rw [if_neg (show headPtr (x :: xs) ≠ 0 from hx)]
        refine Does.bind (v := 0) (Q := Spine p (x :: xs) ls ⋆ Cells plEntry (x :: xs) pls) ?_ ?_
        · refine Does.ofRead fun h m e fin g => ?_
          obtain ⟨c1, c2⟩ := spine_cells e g
          exact getFrom_miss fin.1 c1 c2 hu
        · rw [if_pos rfl]
          refine (Triple.frame (append_does hal new p (x :: xs) (by simp) ls "") _).post fun q h e => ?_
          obtain ⟨h1, h2, d, e, ⟨b, s⟩, c⟩ := e
          refine ⟨x :: xs, b, [], ls ++ [""], fact_star.mpr ⟨hlen, ?_⟩⟩
          have e' : (Spine p ((x :: xs) ++ [(b, q)]) (ls ++ [""]) ⋆ cell q (.pl (ParsedLanguage.new env.junk r.lang text.length))) ⋆ Cells plEntry (x :: xs) pls =
            cell q (.pl (ParsedLanguage.new env.junk r.lang text.length)) ⋆ Spine p ((x :: xs) ++ (b, q) :: []) (ls ++ [""]) ⋆ Cells plEntry (x :: xs) pls ⋆
              Cells plEntry [] [] := by
            show _ = _ ⋆ _ ⋆ _ ⋆ emp
            rw [star_emp]
            ac_rfl
          rw [← e']
          exact ⟨h1, h2, d, e, s, c⟩
    · rintro h ⟨h1, h2, d, e, ⟨a, b⟩, c⟩
      exact fact_star.mpr ⟨a, h1, h2, d, e, b, c⟩

theorem record_does (cp q p : Ptr) (o : Option Bytes) (r : Report) (vs1 : List ParsedLanguage) (v v' : ParsedLanguage) (vs2 : List ParsedLanguage)
    (ho : o = none → r.kind = .lblank) (hr : recordLine (o.getD []) v r = some v') :
    Does (record cp q r) (Mid p vs1 v vs2 q ⋆ optText cp o) () (Lst plEntry p (vs1 ++ v' :: vs2) ⋆ optText cp o) := by
  have back : ∀ h, (Mid p vs1 v' vs2 q ⋆ optText cp o) h → (Lst plEntry p (vs1 ++ v' :: vs2) ⋆ optText cp o) h := star_mono Mid.toLst fun _ h => h
  refine Triple.know (star_ne' optText_null) fun hn => ?_
  refine Triple.post (Q := fun x h => x = () ∧ (Mid p vs1 v' vs2 q ⋆ optText cp o) h) ?_ fun x h e => ⟨e.1, back h e.2⟩
  unfold Mid
  rw [ex_star]
  refine Triple.ex fun xs1 => ?_
  rw [ex_star]
  refine Triple.ex fun b => ?_
  rw [ex_star]
  refine Triple.ex fun xs2 => ?_
  rw [ex_star]
  refine Triple.ex fun ls => ?_
  rw [star_assoc]
  refine Triple.fact fun hl => ?_
  rw [star_assoc]
  unfold record
  refine Does.step rfl (getItem_does plEntry q v) ?_
  rw [if_neg fun e => e.2 (ho (hn.mp e.1))]
  refine Does.step (A := optText cp o) (F := cell q (.pl v) ⋆ (Spine p (xs1 ++ (b, q) :: xs2) ls ⋆ Cells plEntry xs1 vs1 ⋆ Cells plEntry xs2 vs2)) ?_ (getTextOpt_does cp o) ?_
  · show cell q (.pl v) ⋆ _ = _
    ac_rfl
  · rw [hr]
    dsimp only
    refine Does.last (star_left_comm ..) (setItem_does plEntry q v v') fun h e => ⟨rfl, ?_⟩
    have e' : cell q (plEntry.cell v') ⋆ optText cp o ⋆ (Spine p (xs1 ++ (b, q) :: xs2) ls ⋆ Cells plEntry xs1 vs1 ⋆ Cells plEntry xs2 vs2) =
      (cell q (.pl v') ⋆ Spine p (xs1 ++ (b, q) :: xs2) ls ⋆ Cells plEntry xs1 vs1 ⋆ Cells plEntry xs2 vs2) ⋆ optText cp o := by
      show cell q (.pl v') ⋆ _ = _
      ac_rfl
    rw [e'] at e
    obtain ⟨h1, h2, d, e, a, c⟩ := e
    exact ⟨h1, h2, d, e, ⟨xs1, b, xs2, ls, fact_star.mpr ⟨hl, a⟩⟩, c⟩

theorem callback_does (hal : Good al) (p : Ptr) (f : FileRec) (o : Option Bytes) (pls pls' : List ParsedLanguage) (r : Report) (hs : f.size = (o.getD []).length)
    (ho : o = none → r.kind = .lblank) (hr : parserCallback env.junk (o.getD []) pls r = some pls') :
    Does (callback env al p r) (cell p (.file f) ⋆ Lst plEntry f.parsed pls ⋆ optText f.contents o) ()
      (cell p (.file f) ⋆ Lst plEntry f.parsed pls' ⋆ optText f.contents o) := by
  obtain ⟨vs1, v, vs2, e, t⟩ := plOf_does (env := env) hal f.parsed pls r (o.getD []) f.size hs
  rw [e] at hr
  cases hv : recordLine (o.getD []) v r with
  | none => rw [hv] at hr; cases hr
  | some v' =>
    rw [hv] at hr
    injection hr with hr
    subst hr
    unfold callback
    refine Does.step rfl (getFile_does p f) ?_
    refine Triple.step (star_left_comm ..) t fun q => ?_
    refine Does.last (A := Mid f.parsed vs1 v vs2 q ⋆ optText f.contents o) (F := cell p (.file f)) (by ac_rfl) (record_does _ _ _ _ _ _ _ _ _ ho hv) fun h e => ⟨rfl, ?_⟩
    rw [star_comm] at e
    exact e

theorem callbacks_does (hal : Good al) (p : Ptr) (f : FileRec) (o : Option Bytes) (hs : f.size = (o.getD []).length) : ∀ (rs : List Report) (pls pls' : List ParsedLanguage),
    (o = none → ∀ r ∈ rs, r.kind = .lblank) → recordAll env.junk (o.getD []) pls rs = some pls' →
    Does (callbacks env al p rs) (cell p (.file f) ⋆ Lst plEntry f.parsed pls ⋆ optText f.contents o) ()
      (cell p (.file f) ⋆ Lst plEntry f.parsed pls' ⋆ optText f.contents o)
  | [], pls, pls', _, h => by
    unfold recordAll at h
    injection h with h
    subst h
    exact Does.pure _ _
  | r :: rs, pls, pls', ho, h => by
    unfold recordAll at h
    cases h1 : parserCallback env.junk (o.getD []) pls r with
    | none => rw [h1] at h; cases h
    | some pls1 =>
      rw [h1] at h
      unfold callbacks
      exact (callback_does hal p f o pls pls1 r hs (fun e => ho e r (by simp)) h1).bind
        (callbacks_does hal p f o hs rs pls1 pls' (fun e r hr => ho e r (by simp [hr])) h)

/-! ### Parsing -/

/-- The size that is known is that of the contents that there are. -/
def SizeOk (s : SourceFile) : Prop := ∀ c, s.contents = some c → s.size = c.length

theorem SizeOk.load {s : SourceFile} (h : SizeOk s) : SizeOk (s.loadContents disk) ∧ (s.loadContents disk).size = ((s.loadContents disk).contents.getD []).length := by
  unfold SourceFile.loadContents
  cases hs : s.contents with
  | some b =>
    dsimp only
    exact ⟨h, by rw [hs]; exact h b hs⟩
  | none =>
    dsimp only
    split
    · exact ⟨fun c e => by injection e with e; rw [← e], rfl⟩
    · exact ⟨(fun c e => nomatch e), rfl⟩
    · exact ⟨(fun c e => nomatch e), rfl⟩

theorem SizeOk.size {s : SourceFile} (h : SizeOk s) : SizeOk (s.sizeOf disk) := by
  unfold SourceFile.sizeOf
  split
  · exact h.load.1
  · exact h

theorem SizeOk.detect {s : SourceFile} (h : SizeOk s) : SizeOk (s.detectLanguage env disk) := by
  unfold SourceFile.detectLanguage
  split
  · exact h
  · dsimp only
    split
    · exact h.load.1
    · exact h

/-- After the parser has run: the size, and no code or comments without contents. -/
theorem runParser_ok (ok : EnvOk env) {s : SourceFile} (h : SizeOk s) : SizeOk (s.runParser env disk).1 ∧ ((s.runParser env disk).2 = [] ∨
    (s.runParser env disk).1.size = ((s.runParser env disk).1.contents.getD []).length) ∧
    ((s.runParser env disk).1.contents = none → ∀ r ∈ (s.runParser env disk).2, r.kind = .lblank) := by
  unfold SourceFile.runParser
  dsimp only
  split
  · exact ⟨h.detect, .inl rfl, by simp⟩
  · split
    · rw [load_sizeOf]
      obtain ⟨a, b⟩ := (h.detect (env := env) (disk := disk)).load (disk := disk)
      refine ⟨a, .inr b, fun e r hr => ?_⟩
      dsimp only at e hr
      rw [e] at hr
      exact ok.null _ _ _ hr
    · exact ⟨h.detect, .inl rfl, by simp⟩

theorem load_parsed (s : SourceFile) (o : Option (List ParsedLanguage)) : { s with parsed := o }.loadContents disk = { s.loadContents disk with parsed := o } := by
  unfold SourceFile.loadContents
  dsimp only
  split
  · rfl
  · split <;> rfl

theorem size_parsed (s : SourceFile) (o : Option (List ParsedLanguage)) : { s with parsed := o }.sizeOf disk = { s.sizeOf disk with parsed := o } := by
  unfold SourceFile.sizeOf
  split
  · rw [load_parsed]
  · rfl

theorem detect_parsed (ok : EnvOk env) (s : SourceFile) (o : Option (List ParsedLanguage)) :
    { s with parsed := o }.detectLanguage env disk = { s.detectLanguage env disk with parsed := o } := by
  have e : env.detect { s with parsed := o } disk = env.detect s disk := by rw [ok.sees, ok.sees s]; rfl
  unfold SourceFile.detectLanguage
  split
  · rfl
  · rw [e]
    dsimp only
    split
    · rw [load_parsed]
    · rfl

theorem run_parsed (ok : EnvOk env) (s : SourceFile) (o : Option (List ParsedLanguage)) :
    { s with parsed := o }.runParser env disk = ({ (s.runParser env disk).1 with parsed := o }, (s.runParser env disk).2) := by
  unfold SourceFile.runParser
  rw [detect_parsed ok]
  dsimp only
  split
  · rfl
  · split
    · rw [load_parsed, size_parsed]
    · rfl

theorem fileParse_does (hal : Good al) (ok : EnvOk env) (p : Ptr) (s s' : SourceFile) (hs : SizeOk s) (hp : s.doParse env disk = some s') (k : Slots) :
    Triple (fileParse env al disk p) (FileAt p s k) (fun _ => ex fun c => ex fun q => FileAt p s' { k with cp := c, pp := q }) := by
  refine Triple.know FileAt.null fun hn => ?_
  unfold fileParse
  refine (FileAt.get p s k).bind ?_
  unfold SourceFile.doParse at hp
  refine onlyIf_does (fun hc => ?_) (fun hc h e => ?_)
  · have hpn : s.parsed = none := hn.2.2.1.mp hc
    rw [hpn] at hp
    dsimp only at hp
    obtain ⟨pls, hpls, hp⟩ := Option.bind_eq_some_iff.mp hp
    injection hp with hp
    obtain ⟨r1, r2, r3⟩ := runParser_ok (disk := disk) ok hs
    unfold fileParseNow
    refine Triple.step (emp_star _).symm (listNew_does (E := plEntry) hal) fun q => ?_
    rw [FileAt.atP, hpn]
    show Triple _ (Lst plEntry q [] ⋆ (fact _ ⋆ _)) _
    rw [star_left_comm]
    refine Triple.fact fun _ => ?_
    refine Does.step (star_left_comm ..) (setFile_does p _ _) ?_
    refine Triple.pre (P' := FileAt p { s with parsed := some [] } { k with pp := q }) ?_ fun h e => by
      rw [FileAt.atP]
      rw [star_left_comm] at e
      exact e
    refine (parserRun_does hal ok p _ _).then fun rs hrs => ?_
    rw [run_parsed ok] at hrs
    refine Triple.ex fun c => ?_
    rw [run_parsed ok]
    dsimp only at hrs ⊢
    generalize s.runParser env disk = y at *
    subst hrs
    refine Triple.bind (Q := fun _ => FileAt p { y.1 with parsed := some pls } { k with cp := c, pp := q }) ?_ fun _ => ?_
    · rcases r2 with r2 | r2
      · rw [r2] at hpls ⊢
        unfold recordAll at hpls
        injection hpls with hpls
        subst hpls
        exact Triple.pure fun _ e => e
      · refine Does.last (A := cell p (.file (fileRec y.1 { k with cp := c, pp := q })) ⋆ Lst plEntry q [] ⋆ optText c y.1.contents)
          (F := cell k.fp (.text y.1.filepath) ⋆ optText k.dp y.1.diskpath ⋆ optLics k.lp y.1.licenses ⋆ optLst locEntry k.kp y.1.locList) ?_
          (callbacks_does hal p (fileRec y.1 { k with cp := c, pp := q }) y.1.contents r2 y.2 [] pls r3 hpls) fun h e => ?_
        · unfold FileAt Parts
          show cell p (.file (fileRec y.1 { k with cp := c, pp := q })) ⋆ cell k.fp (.text y.1.filepath) ⋆ optText k.dp y.1.diskpath ⋆ optText c y.1.contents ⋆ Lst plEntry q [] ⋆
            optLics k.lp y.1.licenses ⋆ optLst locEntry k.kp y.1.locList = _
          ac_rfl
        · show (cell p (.file (fileRec y.1 { k with cp := c, pp := q })) ⋆ cell k.fp (.text y.1.filepath) ⋆ optText k.dp y.1.diskpath ⋆ optText c y.1.contents ⋆ Lst plEntry q pls ⋆
            optLics k.lp y.1.licenses ⋆ optLst locEntry k.kp y.1.locList) h
          have e' : (cell p (.file (fileRec y.1 { k with cp := c, pp := q })) ⋆ Lst plEntry q pls ⋆ optText c y.1.contents) ⋆
              (cell k.fp (.text y.1.filepath) ⋆ optText k.dp y.1.diskpath ⋆ optLics k.lp y.1.licenses ⋆ optLst locEntry k.kp y.1.locList) =
            cell p (.file (fileRec y.1 { k with cp := c, pp := q })) ⋆ cell k.fp (.text y.1.filepath) ⋆ optText k.dp y.1.diskpath ⋆ optText c y.1.contents ⋆ Lst plEntry q pls ⋆
              optLics k.lp y.1.licenses ⋆ optLst locEntry k.kp y.1.locList := by ac_rfl
          rw [← e']
          exact e
    · refine (FileAt.get p _ _).bind ?_
      have hfree : Does (free c) (optText c y.1.contents) () emp := by
        cases ho : y.1.contents with
        | none => exact Triple.pre (P' := fact (c = 0) ⋆ emp) (Triple.fact fun e => e ▸ free_null_does) fun h e => by rw [star_emp]; exact e
        | some b => exact free_does c _
      refine Does.step (FileAt.atC ..) hfree ?_
      rw [emp_star]
      refine Does.last rfl (setFile_does p _ _) fun h e => ⟨0, q, ?_⟩
      show FileAt _ _ _ h
      rw [FileAt.atC, ← hp]
      exact fact_star.mpr ⟨rfl, e⟩
  · have hpn : s.parsed ≠ none := fun e => hc (hn.2.2.1.mpr e)
    cases hs' : s.parsed with
    | none => exact absurd hs' hpn
    | some pls =>
      rw [hs'] at hp
      injection hp with hp
      exact ⟨k.cp, k.pp, hp ▸ e⟩

theorem doParse_some {s s' : SourceFile} (h : s.doParse env disk = some s') : ∃ pls, s'.parsed = some pls := by
  unfold SourceFile.doParse at h
  cases hs : s.parsed with
  | some pls =>
    rw [hs] at h
    injection h with h
    exact ⟨pls, h ▸ hs⟩
  | none =>
    rw [hs] at h
    dsimp only at h
    obtain ⟨pls, _, h⟩ := Option.bind_eq_some_iff.mp h
    injection h with h
    exact ⟨pls, by rw [← h]⟩

theorem doParse_again {s : SourceFile} {pls : List ParsedLanguage} (h : s.parsed = some pls) : s.doParse env disk = some s := by
  unfold SourceFile.doParse
  rw [h]

theorem load_keeps (s : SourceFile) : (s.loadContents disk).locList = s.locList ∧ (s.loadContents disk).licenses = s.licenses := by
  unfold SourceFile.loadContents
  split
  · exact ⟨rfl, rfl⟩
  · dsimp only
    split <;> exact ⟨rfl, rfl⟩

theorem size_keeps (s : SourceFile) : (s.sizeOf disk).locList = s.locList ∧ (s.sizeOf disk).licenses = s.licenses := by
  unfold SourceFile.sizeOf
  split
  · exact load_keeps s
  · exact ⟨rfl, rfl⟩

theorem detect_keeps (s : SourceFile) : (s.detectLanguage env disk).locList = s.locList ∧ (s.detectLanguage env disk).licenses = s.licenses := by
  unfold SourceFile.detectLanguage
  split
  · exact ⟨rfl, rfl⟩
  · dsimp only
    split
    · exact load_keeps s
    · exact ⟨rfl, rfl⟩

theorem run_keeps (s : SourceFile) : (s.runParser env disk).1.locList = s.locList ∧ (s.runParser env disk).1.licenses = s.licenses := by
  have hd := detect_keeps (env := env) (disk := disk) s
  unfold SourceFile.runParser
  dsimp only
  split
  · exact hd
  · split
    · have h1 := load_keeps (disk := disk) (s.detectLanguage env disk)
      have h2 := size_keeps (disk := disk) ((s.detectLanguage env disk).loadContents disk)
      exact ⟨h2.1.trans (h1.1.trans hd.1), h2.2.trans (h1.2.trans hd.2)⟩
    · exact hd

theorem doParse_keeps {s s' : SourceFile} (h : s.doParse env disk = some s') : s'.locList = s.locList ∧ s'.licenses = s.licenses := by
  unfold SourceFile.doParse at h
  cases hs : s.parsed with
  | some pls =>
    rw [hs] at h
    injection h with h
    rw [h]; exact ⟨rfl, rfl⟩
  | none =>
    rw [hs] at h
    dsimp only at h
    obtain ⟨pls, _, h⟩ := Option.bind_eq_some_iff.mp h
    injection h with h
    rw [← h]
    exact run_keeps s

theorem SizeOk.parse {s s' : SourceFile} (hs : SizeOk s) (h : s.doParse env disk = some s') : SizeOk s' := by
  unfold SourceFile.doParse at h
  cases hp : s.parsed with
  | some pls =>
    rw [hp] at h
    injection h with h
    exact h ▸ hs
  | none =>
    rw [hp] at h
    dsimp only at h
    obtain ⟨pls, _, h⟩ := Option.bind_eq_some_iff.mp h
    injection h with h
    rw [← h]
    exact fun c e => nomatch e

theorem fileParsed_does (hal : Good al) (ok : EnvOk env) (p : Ptr) (s s' : SourceFile) (hs : SizeOk s) (hp : s.doParse env disk = some s') (k : Slots) :
    Triple (fileParsed env al disk p) (FileAt p s k) (fun q => ex fun c => FileAt p s' { k with cp := c, pp := q }) := by
  unfold fileParsed
  refine Triple.bind (fileParse_does hal ok p s s' hs hp k) fun _ => ?_
  refine Triple.ex fun c => Triple.ex fun q => ?_
  exact (FileAt.get p _ _).bind (Triple.pure fun _ e => ⟨c, e⟩)

/-! ### Reading lists -/

section
variable {V : Type} {E : Entry V}

theorem readFrom_run {m : Mem} (h0 : m 0 = none) : ∀ {xs : List (Ptr × Ptr)} {vs : List V} {p : Ptr}, Chain m p xs → Items E m xs vs →
    readFrom E p m = some (vs, m)
  | [], _, p, h, h' => by
    cases h'
    rw [readFrom, show p = 0 from h]
    rfl
  | x :: xs, _, p, h, h' => by
    cases h' with
    | @cons _ v _ vs g hs =>
      obtain ⟨h1, n, h2, h3, h4⟩ := h
      have hp : p ≠ 0 := fun e => by rw [← h1, e, h0] at h2; cases h2
      rw [readFrom, if_neg hp, bind_run (getNode_run (h1 ▸ h2)), bind_run (getItem_run E (h3 ▸ g)), bind_run (readFrom_run h0 h4 hs)]
      rfl

theorem readList_does (p : Ptr) (vs : List V) : Does (readList E p) (Lst E p vs) vs (Lst E p vs) := by
  refine Does.ofRead fun h m l fin g => ?_
  obtain ⟨bs, ⟨xs, h1, h2, _⟩, _⟩ := l.whole g
  obtain ⟨n, ⟨g1, g2, _⟩ | g'⟩ := h1.head
  · rw [readList, bind_run (getNode_run g1), readFrom_run fin.1 g2 h2]
  · exact absurd fin.1 g'

end

theorem readNamesFrom_does (p : Ptr) (ls : List String) : ∀ (xs2 xs1 : List (Ptr × Ptr)),
    Does (readNamesFrom (headPtr xs2)) (Spine p (xs1 ++ xs2) ls) (ls.drop xs1.length) (Spine p (xs1 ++ xs2) ls)
  | [], xs1 => by
    refine Triple.know (φ := ls.drop xs1.length = []) (fun h s _ => ?_) fun e => ?_
    · have := s.length
      simp at this
      exact List.drop_eq_nil_of_le (by omega)
    · rw [e, readNamesFrom, show headPtr [] = 0 from rfl, if_pos rfl]
      exact Does.pure _ _
  | x :: xs2, xs1 => by
    refine Triple.know (fun h s => s.ne) fun hx => ?_
    rw [readNamesFrom, show headPtr (x :: xs2) = x.1 from rfl, if_neg hx]
    refine (getNth_does p xs1 x xs2 ls).then fun n hn => ?_
    have ih := readNamesFrom_does p ls xs2 (xs1 ++ [x])
    rw [List.append_assoc] at ih
    rw [hn.2.1]
    refine Does.bind ih ?_
    refine Triple.pure fun h e => ⟨?_, e⟩
    rw [List.length_append]
    have := hn.2.2
    rw [List.getElem?_eq_some_iff] at this
    obtain ⟨hl, e⟩ := this
    rw [List.drop_eq_getElem_cons hl, e]
    rfl

theorem readNames_does (p : Ptr) (ls : List String) : Does (readNames p) (Lics p ls) ls (Lics p ls) := by
  refine Triple.ex fun xs => ?_
  refine Triple.fact fun hx => ?_
  unfold readNames
  refine (getHead_does p xs ls).then fun n hn => ?_
  rw [hn]
  refine Triple.post (readNamesFrom_does p ls xs []) fun x h e => ⟨e.1, xs, fact_star.mpr ⟨hx, e.2⟩⟩

end

end Ohcount.Mem
