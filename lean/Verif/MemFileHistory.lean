import Verif.MemCounts

/-!
Histories of calls on source files and on lists of source files: what a program that keeps its pointers sees is what `SourceFile.lean` says,
whatever addresses `malloc` returns, and which blocks are in use.
-/

namespace Ohcount.Mem

/-! ### The calls -/

/-- A call of a function of `src/sourcefile.c`.  The pointers that the program was given are numbered in the order in which it got them. -/
inductive FCall where
  /-- `ohcount_sourcefile_new`; `before` is the byte in front of the copy of the path (see `splitPath`) -/
  | new (before : Byte) (path : Bytes)
  /-- a call on a source file; all strings and entries that are returned are read -/
  | call (i : Nat) (op : Op)
  /-- `ohcount_sourcefile_free` -/
  | free (i : Nat)
  /-- `ohcount_sourcefile_list_new` -/
  | newList
  /-- `ohcount_sourcefile_list_add_file` -/
  | addFile (i : Nat) (before : Byte) (path : Bytes)
  /-- `ohcount_sourcefile_list_add_directory` -/
  | addDirectory (i : Nat) (before : Byte) (directory : Bytes) (n : Ohcount.Node)
  /-- a call on the source file number `n` of a list -/
  | callNth (i n : Nat) (op : Op)
  /-- `ohcount_sourcefile_list_analyze_languages`, and reading what is returned -/
  | analyze (i : Nat)
  /-- `ohcount_sourcefile_list_free` -/
  | freeList (i : Nat)
  /-- `ohcount_loc_list_free` -/
  | freeLocs (i : Nat)

/-! ### What the calls mean -/

/-- What a pointer stands for. -/
inductive FObj where
  | file (s : SourceFile)
  | files (ss : List SourceFile)
  | locs (l : LocList)

/-- What the pointers of the program stand for, the disk, and the number of blocks that no pointer leads to. -/
structure FWorld where
  objs : List (Option FObj) := []
  disk : Disk
  lost : Nat := 0

/-- The blocks that are left behind by a call: the buffers of `ohcount_detect_license`, src/licenses.c:804. -/
def lossOf : Op → SourceFile → SourceFile → Nat
  | .getLicenses, s, s' => if s.licenses.isSome then 0 else (s'.parsed.getD []).length
  | _, _, _ => 0

/-- One call.  No result: a pointer of another kind or one that was freed, or a call that `SourceFile.lean` gives no result. -/
def FWorld.step (env : Env) (w : FWorld) : FCall → Option (FWorld × Res)
  | .new before path => some ({ w with objs := w.objs ++ [some (.file (.new before path))] }, .unit)
  | .call i op => match w.objs[i]? with
    | some (some (.file s)) => (Ohcount.step env ⟨s, w.disk⟩ op).bind fun (x, r) =>
        some (⟨w.objs.set i (some (.file x.sf)), x.disk, w.lost + lossOf op s x.sf⟩, r)
    | _ => none
  | .free i => match w.objs[i]? with
    | some (some (.file _)) => some ({ w with objs := w.objs.set i none }, .unit)
    | _ => none
  | .newList => some ({ w with objs := w.objs ++ [some (.files [])] }, .unit)
  | .addFile i before path => match w.objs[i]? with
    | some (some (.files ss)) => some ({ w with objs := w.objs.set i (some (.files (listAddFile before ss path))) }, .unit)
    | _ => none
  | .addDirectory i before directory n => match w.objs[i]? with
    | some (some (.files ss)) => some ({ w with objs := w.objs.set i (some (.files (listAddDirectory before ss directory n))) }, .unit)
    | _ => none
  | .callNth i n op => match w.objs[i]? with
    | some (some (.files ss)) => match ss[n]? with
      | some s => (Ohcount.step env ⟨s, w.disk⟩ op).bind fun (x, r) =>
          some (⟨w.objs.set i (some (.files (ss.set n x.sf))), x.disk, w.lost + lossOf op s x.sf⟩, r)
      | none => none
    | _ => none
  | .analyze i => match w.objs[i]? with
    | some (some (.files ss)) => (analyzeLanguages env w.disk ss).bind fun l => (countAll env w.disk ss).bind fun ss' =>
        some ({ w with objs := w.objs.set i (some (.files ss')) ++ [some (.locs l)] }, .loc l)
    | _ => none
  | .freeList i => match w.objs[i]? with
    | some (some (.files _)) => some ({ w with objs := w.objs.set i none }, .unit)
    | _ => none
  | .freeLocs i => match w.objs[i]? with
    | some (some (.locs _)) => some ({ w with objs := w.objs.set i none }, .unit)
    | _ => none

def FWorld.run (env : Env) (w : FWorld) : List FCall → Option (FWorld × List Res)
  | [] => some (w, [])
  | c :: cs => (w.step env c).bind fun (w1, r) => (w1.run env cs).bind fun (w2, rs) => some (w2, r :: rs)

/-! ### What the calls do -/

variable (env : Env) (al : Alloc)

/-- The functions of `src/sourcefile.c` applied to a source file; the caller reads what it gets.  The strings that the caller passes are
freed by the caller. -/
def fileCall (disk : Disk) (sf : Ptr) : Op → M Res
  | .setDiskpath path => do
    let t ← malloc al (.text path)
    setDiskpath al sf t
    Mem.free t
    pure .unit
  | .setContents c => do
    let t ← malloc al (.text c)
    setContents al sf t
    Mem.free t
    pure .unit
  | .getContents => do
    let p ← fileContents al disk sf
    let c ← getTextOpt p
    pure (.contents c)
  | .getSize => do
    let n ← fileSize al disk sf
    pure (.size n)
  | .setLanguage name => do
    setLanguage env sf name
    pure .unit
  | .getLanguage => do
    let l ← fileLanguage env al disk sf
    pure (.language l)
  | .parse => do
    fileParse env al disk sf
    pure .unit
  | .getParsed => do
    let p ← fileParsed env al disk sf
    let pls ← readList plEntry p
    pure (.parsed pls)
  | .parseWithCallback => do                                  -- src/sourcefile.c:213-219
    let rs ← parserRun env al disk sf
    pure (.reports rs)
  | .getLicenses => do
    let p ← fileLicenses env al disk sf
    let ls ← readNames p
    pure (.licenses ls)
  | .getLoc => do
    let p ← fileLoc env al disk sf
    let l ← readList locEntry p
    pure (.loc l)
  | .diskChange _ => pure .unit

/-- The disk after a call: only others change it. -/
def diskAfter (disk : Disk) : Op → Disk
  | .diskChange d => d
  | _ => disk

/-- What the program keeps: its pointers; and the disk. -/
structure Prog where
  ps : List Ptr := []
  disk : Disk

/-- The functions of `src/sourcefile.c` applied to the program's pointers. -/
def progStep (x : Prog) : FCall → M (Prog × Res)
  | .new before path => do
    let p ← fileNew al before path
    pure ({ x with ps := x.ps ++ [p] }, .unit)
  | .call i op => do
    let p ← (x.ps[i]? : Option Ptr)
    let r ← fileCall env al x.disk p op
    pure ({ x with disk := diskAfter x.disk op }, r)
  | .free i => do
    let p ← (x.ps[i]? : Option Ptr)
    fileFree p
    pure (x, .unit)
  | .newList => do
    let p ← listNew al
    pure ({ x with ps := x.ps ++ [p] }, .unit)
  | .addFile i before path => do
    let p ← (x.ps[i]? : Option Ptr)
    filesAdd al before p path
    pure (x, .unit)
  | .addDirectory i before directory n => do
    let p ← (x.ps[i]? : Option Ptr)
    filesAddAll al before p (addDirectory directory n)
    pure (x, .unit)
  | .callNth i n op => do
    let p ← (x.ps[i]? : Option Ptr)
    let q ← filesNth p n
    let r ← fileCall env al x.disk q op
    pure ({ x with disk := diskAfter x.disk op }, r)
  | .analyze i => do
    let p ← (x.ps[i]? : Option Ptr)
    let q ← filesAnalyze env al x.disk p
    let l ← readList locEntry q
    pure ({ x with ps := x.ps ++ [q] }, .loc l)
  | .freeList i => do
    let p ← (x.ps[i]? : Option Ptr)
    filesFree p
    pure (x, .unit)
  | .freeLocs i => do
    let p ← (x.ps[i]? : Option Ptr)
    listFree p
    pure (x, .unit)

def progRun (x : Prog) : List FCall → M (Prog × List Res)
  | [] => pure (x, [])
  | c :: cs => do
    let (x, r) ← progStep env al x c
    let (x, rs) ← progRun x cs
    pure (x, r :: rs)

/-! ### Sizes -/

/-- The blocks of a list with `n` entries: the list is a block, the first node, from the first entry on; every entry is one too. -/
def listSize (n : Nat) : Nat := if n = 0 then 1 else 2 * n

/-- The blocks of a source file: the structure, its path, and what it points to. -/
def fileSizeOf (s : SourceFile) : Nat :=
  2 + (if s.diskpath.isSome then 1 else 0) + (if s.contents.isSome then 1 else 0) + (match s.parsed with | some l => listSize l.length | none => 0) +
    (match s.licenses with | some l => spineSize l.length | none => 0) + (match s.locList with | some l => listSize l.length | none => 0)

def FObj.size : FObj → Nat
  | .file s => fileSizeOf s
  | .files ss => spineSize ss.length + (ss.map fileSizeOf).sum
  | .locs l => listSize l.length

/-- The blocks of all that has not been freed. -/
def FWorld.size (w : FWorld) : Nat := (w.objs.map fun o => match o with | some o => o.size | none => 0).sum

/-! ### What is in memory -/

def Object (p : Ptr) : Option FObj → Asn
  | some (.file s) => File p s
  | some (.files ss) => Files p ss
  | some (.locs l) => Lst locEntry p l
  | none => emp

def Objects : List Ptr → List (Option FObj) → Asn
  | [], [] => emp
  | p :: ps, o :: os => Object p o ⋆ Objects ps os
  | _, _ => fun _ => False

variable {env al}

theorem Objects.length : ∀ {ps : List Ptr} {os : List (Option FObj)} {h : Mem}, Objects ps os h → ps.length = os.length
  | [], [], _, _ => rfl
  | _ :: _, _ :: _, _, ⟨_, _, _, _, _, c⟩ => congrArg (· + 1) c.length
  | [], _ :: _, _, h => h.elim
  | _ :: _, [], _, h => h.elim

theorem Objects.append : ∀ {ps qs : List Ptr} {os us : List (Option FObj)}, ps.length = os.length → Objects (ps ++ qs) (os ++ us) = Objects ps os ⋆ Objects qs us
  | [], _, [], _, _ => (emp_star _).symm
  | _ :: ps, _, _ :: os, _, h => by
    show _ ⋆ Objects (ps ++ _) (os ++ _) = (_ ⋆ _) ⋆ _
    rw [Objects.append (by simpa using h), star_assoc]
  | [], _, _ :: _, _, h => by simp at h
  | _ :: _, _, [], _, h => by simp at h

theorem Objects.one (p : Ptr) (o : Option FObj) : Objects [p] [o] = Object p o := star_emp _

/-- One of the objects, and the others. -/
theorem Objects.focus {ps : List Ptr} {os : List (Option FObj)} {i : Nat} {o : Option FObj} (h : os[i]? = some o) (hl : ps.length = os.length) :
    ∃ p R, ps[i]? = some p ∧ Objects ps os = Object p o ⋆ R ∧ ∀ o', Objects ps (os.set i o') = Object p o' ⋆ R := by
  obtain ⟨hi, e⟩ := List.getElem?_eq_some_iff.mp h
  have hi' : i < ps.length := by omega
  refine ⟨ps[i], Objects (ps.take i) (os.take i) ⋆ Objects (ps.drop (i + 1)) (os.drop (i + 1)), List.getElem?_eq_getElem hi', ?_, fun o' => ?_⟩
  · have e1 : ps = ps.take i ++ ps[i] :: ps.drop (i + 1) := by simp
    have e2 : os = os.take i ++ o :: os.drop (i + 1) := by rw [← e]; simp
    conv => lhs; rw [e1, e2]
    rw [Objects.append (by simp; omega)]
    show _ ⋆ Object _ _ ⋆ _ = _
    ac_rfl
  · have e1 : ps = ps.take i ++ ps[i] :: ps.drop (i + 1) := by simp
    have e2 : os.set i o' = os.take i ++ o' :: os.drop (i + 1) := List.set_eq_take_append_cons_drop ▸ (if_pos hi)
    conv => lhs; rw [e2]; arg 1; rw [e1]
    rw [Objects.append (by simp; omega)]
    show _ ⋆ Object _ _ ⋆ _ = _
    ac_rfl

/-- Every size that is known is that of the contents. -/
def FObj.Ok : FObj → Prop
  | .file s => SizeOk s
  | .files ss => ∀ s ∈ ss, SizeOk s
  | .locs _ => True

def FWorld.Ok (w : FWorld) : Prop := ∀ o, some o ∈ w.objs → o.Ok

theorem none_lost {P : Asn} : ∀ h, P h → (Blocks 0 ⋆ P) h := by
  intro h e
  rw [← emp_star P] at e
  exact star_mono Blocks.emp (fun _ e => e) h e

theorem FileAt.file {p : Ptr} {s : SourceFile} {k : Slots} : ∀ h, FileAt p s k h → File p s h := fun _ e => ⟨k, e⟩

section
variable {disk : Disk}

/-- A call on a source file. -/
theorem fileCall_does (hal : Good al) (ok : EnvOk env) (p : Ptr) (s : SourceFile) (hs : SizeOk s) (op : Op) (x : Ohcount.World) (r : Res) (h : Ohcount.step env ⟨s, disk⟩ op = some (x, r)) :
    Does (fileCall env al disk p op) (File p s) r (Blocks (lossOf op s x.sf) ⋆ File p x.sf) ∧ x.disk = diskAfter disk op ∧ SizeOk x.sf := by
  cases op with
  | setDiskpath path =>
    injection h with h
    obtain ⟨rfl, rfl⟩ := Prod.mk.inj h
    refine ⟨?_, rfl, hs⟩
    unfold fileCall
    refine Triple.step (emp_star _).symm (malloc_does hal _) fun t => ?_
    refine Triple.step (F := emp) (by rw [star_emp, star_comm]) (setDiskpath_does hal p s t path) fun _ => ?_
    rw [star_emp]
    refine Does.step (star_comm ..) (free_does t _) ?_
    rw [emp_star]
    exact Triple.pure fun h e => ⟨rfl, none_lost h e⟩
  | setContents c =>
    injection h with h
    obtain ⟨rfl, rfl⟩ := Prod.mk.inj h
    refine ⟨?_, rfl, fun c' e => by injection e with e; rw [← e]; rfl⟩
    unfold fileCall
    refine Triple.step (emp_star _).symm (malloc_does hal _) fun t => ?_
    refine Triple.step (F := emp) (by rw [star_emp, star_comm]) (setContents_does hal p s t c) fun _ => ?_
    rw [star_emp]
    refine Does.step (star_comm ..) (free_does t _) ?_
    rw [emp_star]
    exact Triple.pure fun h e => ⟨rfl, none_lost h e⟩
  | getContents =>
    injection h with h
    obtain ⟨rfl, rfl⟩ := Prod.mk.inj h
    refine ⟨?_, rfl, hs.load.1⟩
    unfold fileCall
    refine Triple.ex fun k => ?_
    refine Triple.bind (fileContents_does hal p s k) fun q => ?_
    refine Does.step (FileAt.atC ..) (getTextOpt_does q _) ?_
    refine Triple.pure fun h e => ⟨rfl, none_lost h ⟨{ k with cp := q }, ?_⟩⟩
    show FileAt _ _ _ h
    rw [FileAt.atC]
    exact e
  | getSize =>
    injection h with h
    obtain ⟨rfl, rfl⟩ := Prod.mk.inj h
    refine ⟨?_, rfl, hs.size⟩
    unfold fileCall
    refine Triple.ex fun k => ?_
    refine (fileSize_does hal p s k).then fun n hn => ?_
    refine Triple.ex fun q => ?_
    exact Triple.pure fun h e => ⟨by rw [hn], none_lost h ⟨_, e⟩⟩
  | setLanguage name =>
    injection h with h
    obtain ⟨rfl, rfl⟩ := Prod.mk.inj h
    refine ⟨?_, rfl, ?_⟩
    · unfold fileCall
      refine Triple.bind (setLanguage_does p s name) fun _ => ?_
      exact Triple.pure fun h e => ⟨rfl, none_lost h e⟩
    · unfold SourceFile.setLanguage
      dsimp only
      split <;> exact hs
  | getLanguage =>
    injection h with h
    obtain ⟨rfl, rfl⟩ := Prod.mk.inj h
    refine ⟨?_, rfl, hs.detect⟩
    unfold fileCall
    refine Triple.ex fun k => ?_
    refine (fileLanguage_does hal ok p s k).then fun n hn => ?_
    refine Triple.ex fun q => ?_
    exact Triple.pure fun h e => ⟨by rw [hn], none_lost h ⟨_, e⟩⟩
  | parse =>
    obtain ⟨s', h1, h⟩ := Option.bind_eq_some_iff.mp h
    injection h with h
    obtain ⟨rfl, rfl⟩ := Prod.mk.inj h
    refine ⟨?_, rfl, hs.parse h1⟩
    unfold fileCall
    refine Triple.ex fun k => ?_
    refine Triple.bind (fileParse_does hal ok p s s' hs h1 k) fun _ => ?_
    refine Triple.ex fun c => Triple.ex fun q => ?_
    exact Triple.pure fun h e => ⟨rfl, none_lost h ⟨_, e⟩⟩
  | getParsed =>
    obtain ⟨s', h1, h⟩ := Option.bind_eq_some_iff.mp h
    injection h with h
    obtain ⟨rfl, rfl⟩ := Prod.mk.inj h
    refine ⟨?_, rfl, hs.parse h1⟩
    obtain ⟨pls, hp⟩ := doParse_some h1
    unfold fileCall
    refine Triple.ex fun k => ?_
    refine Triple.bind (fileParsed_does hal ok p s s' hs h1 k) fun q => ?_
    refine Triple.ex fun c => ?_
    rw [FileAt.atP, hp]
    refine Does.step rfl (readList_does q pls) ?_
    refine Triple.pure fun h e => ⟨rfl, none_lost h ⟨{ k with cp := c, pp := q }, ?_⟩⟩
    show FileAt _ _ _ h
    rw [FileAt.atP, hp]
    exact e
  | parseWithCallback =>
    injection h with h
    obtain ⟨rfl, rfl⟩ := Prod.mk.inj h
    refine ⟨?_, rfl, (runParser_ok ok hs).1⟩
    unfold fileCall
    refine Triple.ex fun k => ?_
    refine (parserRun_does hal ok p s k).then fun n hn => ?_
    refine Triple.ex fun q => ?_
    exact Triple.pure fun h e => ⟨congrArg Res.reports hn, none_lost h ⟨_, e⟩⟩
  | getLicenses =>
    obtain ⟨s', h1, h⟩ := Option.bind_eq_some_iff.mp h
    injection h with h
    obtain ⟨rfl, rfl⟩ := Prod.mk.inj h
    refine ⟨?_, rfl, hs.licenses h1⟩
    obtain ⟨ls, hp⟩ : ∃ ls, s'.licenses = some ls := by
      rcases computeLicenses_cases h1 with ⟨h2, rfl⟩ | ⟨_, s1, pls, _, _, _, rfl⟩
      · cases hl : s'.licenses with
        | none => exact absurd hl h2
        | some l => exact ⟨l, rfl⟩
      · exact ⟨_, rfl⟩
    unfold fileCall
    refine Triple.ex fun k => ?_
    refine Triple.bind (fileLicenses_does hal ok p s s' hs h1 k) fun q => ?_
    refine Triple.ex fun c => Triple.ex fun pp => ?_
    rw [FileAt.atL, hp]
    refine Does.step (star_left_comm ..) (readNames_does q ls) ?_
    refine Triple.pure fun h e => ⟨rfl, ?_⟩
    rw [star_left_comm] at e
    refine star_mono (fun _ e => e) (fun h e => ⟨{ k with cp := c, pp := pp, lp := q }, ?_⟩) h e
    show FileAt _ _ _ h
    rw [FileAt.atL, hp]
    exact e
  | getLoc =>
    obtain ⟨s', h1, h⟩ := Option.bind_eq_some_iff.mp h
    injection h with h
    obtain ⟨rfl, rfl⟩ := Prod.mk.inj h
    refine ⟨?_, rfl, hs.loc h1⟩
    obtain ⟨l, hp⟩ := computeLoc_some h1
    unfold fileCall
    refine Triple.ex fun k => ?_
    refine Triple.bind (fileLoc_does hal ok p s s' hs h1 k) fun q => ?_
    refine Triple.ex fun c => Triple.ex fun pp => ?_
    rw [FileAt.atK, hp]
    refine Does.step rfl (readList_does q l) ?_
    refine Triple.pure fun h e => ⟨rfl, none_lost h ⟨{ k with cp := c, pp := pp, kp := q }, ?_⟩⟩
    show FileAt _ _ _ h
    rw [FileAt.atK, hp]
    exact e
  | diskChange d =>
    injection h with h
    obtain ⟨rfl, rfl⟩ := Prod.mk.inj h
    exact ⟨Triple.pure fun h e => ⟨rfl, none_lost h e⟩, rfl, hs⟩

theorem ptr_does {i : Nat} {p : Ptr} {ps : List Ptr} (h : ps[i]? = some p) (P : Asn) : Does (liftM (ps[i]? : Option Ptr) : M Ptr) P p P := by
  intro k r d fin e
  exact ⟨p, k, by rw [h]; rfl, d, fin, rfl, e⟩

/-- What is in memory for the program `x`. -/
def State (w : FWorld) (x : Prog) : Asn := Mem.fact (x.disk = w.disk) ⋆ Blocks w.lost ⋆ Objects x.ps w.objs

theorem countAll_ok : ∀ {ss ss' : List SourceFile}, (∀ s ∈ ss, SizeOk s) → countAll env disk ss = some ss' → ∀ s ∈ ss', SizeOk s
  | [], _, _, h => by
    injection h with h
    subst h
    exact fun _ h => nomatch h
  | s :: ss, _, hs, h => by
    unfold countAll at h
    obtain ⟨s', h1, h⟩ := Option.bind_eq_some_iff.mp h
    obtain ⟨ss', h2, h⟩ := Option.bind_eq_some_iff.mp h
    injection h with h
    subst h
    intro t ht
    rcases List.mem_cons.mp ht with rfl | ht
    · exact (hs s (by simp)).loc h1
    · exact countAll_ok (fun u hu => hs u (by simp [hu])) h2 t ht

end

theorem FWorld.Ok.push {w : FWorld} (hw : w.Ok) {o : FObj} (ho : o.Ok) {d : Disk} {n : Nat} : FWorld.Ok ⟨w.objs ++ [some o], d, n⟩ := by
  intro u hu
  rcases List.mem_append.mp hu with hu | hu
  · exact hw u hu
  · simp at hu
    exact hu ▸ ho

theorem FWorld.Ok.set {w : FWorld} (hw : w.Ok) {i : Nat} {o : Option FObj} (ho : ∀ u, o = some u → u.Ok) {d : Disk} {n : Nat} : FWorld.Ok ⟨w.objs.set i o, d, n⟩ := by
  intro u hu
  rcases List.mem_or_eq_of_mem_set hu with hu | hu
  · exact hw u hu
  · exact ho u hu.symm

/-- A call that changes one object. -/
theorem change_does {α β : Type} {x : Prog} {w : FWorld} {i : Nat} {o : FObj} {o' : Option FObj} {n : Nat} {φ : α → Prop} {f : Ptr → M α} {g : α → M β} {R : β → Asn}
    (hi : w.objs[i]? = some (some o)) (t : ∀ p, Triple (f p) (Object p (some o)) (fun v h => φ v ∧ (Blocks n ⋆ Object p o') h))
    (t' : ∀ v, φ v → Triple (g v) (Blocks (w.lost + n) ⋆ Objects x.ps (w.objs.set i o')) R) :
    Triple (do let p ← (x.ps[i]? : Option Ptr); let v ← f p; g v) (Blocks w.lost ⋆ Objects x.ps w.objs) R := by
  refine Triple.know (φ := x.ps.length = w.objs.length) (star_ne' fun h c _ => c.length) fun hl => ?_
  obtain ⟨p, F, hp, h1, h2⟩ := Objects.focus hi hl
  refine Does.bind (ptr_does hp _) ?_
  refine Triple.stepThen (A := Object p (some o)) (F := Blocks w.lost ⋆ F) (by rw [h1]; ac_rfl) (t p) fun v hv => ?_
  refine Triple.pre (t' v hv) fun h e => ?_
  rw [h2]
  have e' : (Blocks n ⋆ Object p o') ⋆ Blocks w.lost ⋆ F = (Blocks w.lost ⋆ Blocks n) ⋆ Object p o' ⋆ F := by ac_rfl
  rw [e'] at e
  exact star_mono Blocks.star (fun _ e => e) h e

/-- A call that changes one object and returns nothing. -/
theorem change_unit {β : Type} {x : Prog} {w : FWorld} {i : Nat} {o : FObj} {o' : Option FObj} {f : Ptr → M Unit} {g : M β} {R : β → Asn}
    (hi : w.objs[i]? = some (some o)) (t : ∀ p, Does (f p) (Object p (some o)) () (Object p o'))
    (t' : Triple g (Blocks w.lost ⋆ Objects x.ps (w.objs.set i o')) R) :
    Triple (do let p ← (x.ps[i]? : Option Ptr); f p; g) (Blocks w.lost ⋆ Objects x.ps w.objs) R :=
  change_does (n := 0) (φ := fun _ => True) hi (fun p => (t p).post fun _ h e => ⟨trivial, none_lost h e.2⟩) fun _ _ => t'

theorem new_does {α : Type} {x : Prog} {w : FWorld} {o : FObj} {f : M Ptr} {g : Ptr → M α} {R : α → Asn} (t : Triple f emp (fun p => Object p (some o)))
    (t' : ∀ p, Triple (g p) (Blocks w.lost ⋆ Objects (x.ps ++ [p]) (w.objs ++ [some o])) R) : Triple (do let p ← f; g p) (Blocks w.lost ⋆ Objects x.ps w.objs) R := by
  refine Triple.know (φ := x.ps.length = w.objs.length) (star_ne' fun h c _ => c.length) fun hl => ?_
  refine Triple.step (emp_star _).symm t fun p => ?_
  refine Triple.pre (t' p) fun h e => ?_
  rw [Objects.append hl, Objects.one]
  rw [star_comm, star_assoc] at e
  exact e

theorem state {w : FWorld} {x : Prog} {r : Res} (hd : x.disk = w.disk) : ∀ h, (Blocks w.lost ⋆ Objects x.ps w.objs) h → ((x, r).2 = r ∧ State w (x, r).1 h) :=
  fun _ e => ⟨rfl, fact_star.mpr ⟨hd, e⟩⟩

theorem progStep_does (hal : Good al) (ok : EnvOk env) (x : Prog) (w w' : FWorld) (c : FCall) (r : Res) (hw : w.Ok) (h : w.step env c = some (w', r)) :
    Triple (progStep env al x c) (State w x) (fun y h => y.2 = r ∧ State w' y.1 h) ∧ w'.Ok := by
  have file : ∀ {i : Nat} {s : SourceFile}, w.objs[i]? = some (some (FObj.file s)) → SizeOk s := fun h => hw _ (List.mem_of_getElem? h)
  have files : ∀ {i : Nat} {ss : List SourceFile}, w.objs[i]? = some (some (FObj.files ss)) → ∀ s ∈ ss, SizeOk s := fun h => hw _ (List.mem_of_getElem? h)
  cases c with
  | new before path =>
    injection h with h
    obtain ⟨rfl, rfl⟩ := Prod.mk.inj h
    refine ⟨Triple.fact fun hd => ?_, hw.push (o := .file (.new before path)) (fun c e => nomatch e)⟩
    exact new_does (o := .file (.new before path)) (fileNew_does hal before path) fun p => Triple.pure
      (state (x := { x with ps := x.ps ++ [p] }) (w := { w with objs := w.objs ++ [some (.file (.new before path))] }) hd)
  | call i op =>
    unfold FWorld.step at h
    dsimp only at h
    split at h
    · rename_i s hi
      obtain ⟨⟨y, r'⟩, h1, h⟩ := Option.bind_eq_some_iff.mp h
      injection h with h
      obtain ⟨rfl, rfl⟩ := Prod.mk.inj h
      have key := fun p => fileCall_does (al := al) hal ok p s (file hi) op y r' h1
      refine ⟨Triple.fact fun hd => ?_, hw.set fun u hu => ?_⟩
      · refine change_does (φ := fun v => v = r') (n := lossOf op s y.sf) (f := fun p => fileCall env al x.disk p op) (o' := some (.file y.sf)) hi (fun p => ?_) fun v hv => ?_
        · rw [hd]
          exact (key p).1
        · subst hv
          exact Triple.pure (state (x := { x with disk := diskAfter x.disk op }) (w := ⟨w.objs.set i (some (.file y.sf)), y.disk, w.lost + lossOf op s y.sf⟩) (by
            rw [(key 0).2.1, hd]))
      · injection hu with hu
        rw [← hu]
        exact (key 0).2.2
    · cases h
  | free i =>
    unfold FWorld.step at h
    dsimp only at h
    split at h
    · rename_i s hi
      injection h with h
      obtain ⟨rfl, rfl⟩ := Prod.mk.inj h
      refine ⟨Triple.fact fun hd => ?_, hw.set (o := none) (fun u hu => by cases hu)⟩
      exact change_unit (o' := none) (f := fileFree) hi (fun p => fileFree_does p s) (Triple.pure (state (w := { w with objs := w.objs.set i none }) hd))
    · cases h
  | newList =>
    injection h with h
    obtain ⟨rfl, rfl⟩ := Prod.mk.inj h
    refine ⟨Triple.fact fun hd => ?_, hw.push (o := .files []) (fun c e => nomatch e)⟩
    exact new_does (o := .files []) (filesNew_does hal) fun p => Triple.pure
      (state (x := { x with ps := x.ps ++ [p] }) (w := { w with objs := w.objs ++ [some (.files [])] }) hd)
  | addFile i before path =>
    unfold FWorld.step at h
    dsimp only at h
    split at h
    · rename_i ss hi
      injection h with h
      obtain ⟨rfl, rfl⟩ := Prod.mk.inj h
      refine ⟨Triple.fact fun hd => ?_, hw.set fun u hu => ?_⟩
      · exact change_unit (o' := some (.files (listAddFile before ss path))) (f := fun p => filesAdd al before p path) hi (fun p => filesAdd_does hal before p ss path)
          (Triple.pure (state (w := { w with objs := w.objs.set i (some (.files (listAddFile before ss path))) }) hd))
      · injection hu with hu
        rw [← hu]
        intro t ht
        rcases List.mem_append.mp ht with ht | ht
        · exact files hi t ht
        · simp at ht
          subst ht
          exact fun c e => nomatch e
    · cases h
  | addDirectory i before directory n =>
    unfold FWorld.step at h
    dsimp only at h
    split at h
    · rename_i ss hi
      injection h with h
      obtain ⟨rfl, rfl⟩ := Prod.mk.inj h
      refine ⟨Triple.fact fun hd => ?_, hw.set fun u hu => ?_⟩
      · exact change_unit (o' := some (.files (listAddDirectory before ss directory n))) (f := fun p => filesAddAll al before p (addDirectory directory n)) hi (fun p => filesAddAll_does hal before p (addDirectory directory n) ss)
          (Triple.pure (state (w := { w with objs := w.objs.set i (some (.files (listAddDirectory before ss directory n))) }) hd))
      · injection hu with hu
        rw [← hu]
        have : ∀ (ps : List Bytes) (ss : List SourceFile), (∀ s ∈ ss, SizeOk s) → ∀ s ∈ ps.foldl (listAddFile before) ss, SizeOk s := by
          intro ps
          induction ps with
          | nil => exact fun ss h => h
          | cons q ps ih =>
            intro ss h
            refine ih _ fun t ht => ?_
            rcases List.mem_append.mp ht with ht | ht
            · exact h t ht
            · simp at ht
              subst ht
              exact fun c e => nomatch e
        exact this _ ss (files hi)
    · cases h
  | callNth i n op =>
    unfold FWorld.step at h
    dsimp only at h
    split at h
    · rename_i ss hi
      split at h
      · rename_i s hn
        obtain ⟨⟨y, r'⟩, h1, h⟩ := Option.bind_eq_some_iff.mp h
        injection h with h
        obtain ⟨rfl, rfl⟩ := Prod.mk.inj h
        have key := fun p => fileCall_does (al := al) hal ok p s (files hi s (List.mem_of_getElem? hn)) op y r' h1
        obtain ⟨hlt, es⟩ := List.getElem?_eq_some_iff.mp hn
        have e1 : ss = ss.take n ++ s :: ss.drop (n + 1) := by rw [← es]; simp
        have e2 : ss.set n y.sf = ss.take n ++ y.sf :: ss.drop (n + 1) := List.set_eq_take_append_cons_drop ▸ (if_pos hlt)
        have el : (ss.take n).length = n := by simp; omega
        refine ⟨Triple.fact fun hd => ?_, hw.set fun u hu => ?_⟩
        · have ea : progStep env al x (.callNth i n op) = (do let p ← (x.ps[i]? : Option Ptr); let v ← (do let q ← filesNth p n; fileCall env al x.disk q op); pure ({ x with disk := diskAfter x.disk op }, v)) := by
            simp only [progStep, bind_assoc]
          rw [ea]
          refine change_does (φ := fun v => v = r') (n := lossOf op s y.sf) (o' := some (.files (ss.set n y.sf))) hi (fun p => ?_) fun v hv => ?_
          · rw [e2]
            have t := filesNth_does p (ss.take n) s (ss.drop (n + 1))
            rw [el, ← e1] at t
            refine Triple.bind t fun q => ?_
            rw [hd]
            refine Does.last rfl (key q).1 fun h e => ⟨rfl, ?_⟩
            rw [star_assoc] at e
            exact star_mono (fun _ e => e) Without.back h e
          · subst hv
            exact Triple.pure (state (x := { x with disk := diskAfter x.disk op })
              (w := ⟨w.objs.set i (some (.files (ss.set n y.sf))), y.disk, w.lost + lossOf op s y.sf⟩) (by rw [(key 0).2.1, hd]))
        · injection hu with hu
          rw [← hu]
          intro t ht
          rcases List.mem_or_eq_of_mem_set ht with ht | ht
          · exact files hi t ht
          · exact ht ▸ (key 0).2.2
      · cases h
    · cases h
  | analyze i =>
    unfold FWorld.step at h
    dsimp only at h
    split at h
    · rename_i ss hi
      obtain ⟨l, h1, h⟩ := Option.bind_eq_some_iff.mp h
      obtain ⟨ss', h2, h⟩ := Option.bind_eq_some_iff.mp h
      injection h with h
      obtain ⟨rfl, rfl⟩ := Prod.mk.inj h
      refine ⟨Triple.fact fun hd => ?_, ?_⟩
      · refine Triple.know (φ := x.ps.length = w.objs.length) (star_ne' fun h c _ => c.length) fun hl => ?_
        obtain ⟨p, F, hp, k1, k2⟩ := Objects.focus hi hl
        unfold progStep
        refine Does.bind (ptr_does hp _) ?_
        rw [hd]
        refine Triple.step (A := Files p ss) (F := Blocks w.lost ⋆ F) (by
          rw [k1]
          show _ ⋆ Files p ss ⋆ _ = _
          ac_rfl) (filesAnalyze_does hal ok p ss ss' l (files hi) h2 h1) fun q => ?_
        refine Does.step (star_assoc ..) (readList_does q l) ?_
        refine Triple.pure fun h e => ⟨rfl, fact_star.mpr ⟨rfl, ?_⟩⟩
        show (Blocks w.lost ⋆ Objects (x.ps ++ [q]) (w.objs.set i (some (.files ss')) ++ [some (.locs l)])) h
        rw [Objects.append (by rw [List.length_set, hl]), Objects.one, k2]
        have e' : Lst locEntry q l ⋆ Files p ss' ⋆ Blocks w.lost ⋆ F = Blocks w.lost ⋆ (Files p ss' ⋆ F) ⋆ Lst locEntry q l := by ac_rfl
        rw [e'] at e
        exact e
      · have := hw.set (i := i) (o := some (.files ss')) (d := w.disk) (n := w.lost) fun u hu => by
          injection hu with hu
          rw [← hu]
          exact countAll_ok (files hi) h2
        exact this.push (o := .locs l) trivial
    · cases h
  | freeList i =>
    unfold FWorld.step at h
    dsimp only at h
    split at h
    · rename_i ss hi
      injection h with h
      obtain ⟨rfl, rfl⟩ := Prod.mk.inj h
      refine ⟨Triple.fact fun hd => ?_, hw.set (o := none) (fun u hu => by cases hu)⟩
      exact change_unit (o' := none) (f := filesFree) hi (fun p => filesFree_does p ss) (Triple.pure (state (w := { w with objs := w.objs.set i none }) hd))
    · cases h
  | freeLocs i =>
    unfold FWorld.step at h
    dsimp only at h
    split at h
    · rename_i l hi
      injection h with h
      obtain ⟨rfl, rfl⟩ := Prod.mk.inj h
      refine ⟨Triple.fact fun hd => ?_, hw.set (o := none) (fun u hu => by cases hu)⟩
      exact change_unit (o' := none) (f := listFree) hi (fun p => listFree_does p l) (Triple.pure (state (w := { w with objs := w.objs.set i none }) hd))
    · cases h

theorem progRun_does (hal : Good al) (ok : EnvOk env) : ∀ (cs : List FCall) (x : Prog) (w w' : FWorld) (rs : List Res), w.Ok → w.run env cs = some (w', rs) →
    Triple (progRun env al x cs) (State w x) (fun y h => y.2 = rs ∧ State w' y.1 h)
  | [], x, w, w', rs, hw, h => by
    injection h with h
    obtain ⟨rfl, rfl⟩ := Prod.mk.inj h
    exact Triple.pure fun _ e => ⟨rfl, e⟩
  | c :: cs, x, w, w', rs, hw, h => by
    unfold FWorld.run at h
    obtain ⟨⟨w1, r⟩, h1, h⟩ := Option.bind_eq_some_iff.mp h
    obtain ⟨⟨w2, rs'⟩, h2, h⟩ := Option.bind_eq_some_iff.mp h
    injection h with h
    obtain ⟨rfl, rfl⟩ := Prod.mk.inj h
    obtain ⟨t, hw1⟩ := progStep_does hal ok x w w1 c r hw h1
    unfold progRun
    refine Triple.bind t fun y => ?_
    intro k f d fin ⟨e, q⟩
    subst e
    refine Triple.bind (progRun_does hal ok cs y.1 w1 w2 rs' hw1 h2) (fun z => ?_) k f d fin q
    exact Triple.pure fun _ e => ⟨by rw [e.1], e.2⟩

end Ohcount.Mem
