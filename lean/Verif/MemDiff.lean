import Verif.MemFileHistory
import Verif.Diff

/-!
`ohcount_sourcefile_diff` in memory, src/sourcefile.c:255-324: the list of deltas that it returns, and the blocks that it leaves behind.

Not modelled as blocks: the arrays that `ohcount_calc_diff` allocates, all of which it frees (`DiffWords`, C91).
-/

namespace Ohcount.Mem
open Ohcount.Diff

/-! ### The code -/

section
variable (env : Env) (al : Alloc) (disk : Disk) (ext : Bytes → Bytes → Option Bytes) (junk : Junk)

/-- The loops of `ohcount_sourcefile_calc_loc_delta`, src/sourcefile.c:296-312: the first parsed language of that name, or `blank`. -/
def pick (lang : String) (blank iter : Ptr) : M Ptr := do
  if iter = 0 then pure blank else
    let it ← getNode iter
    let v ← getItem plEntry it.item
    if lang = v.name then pure it.item else pick lang blank it.next
partial_fixpoint

/-- Whether `ohcount_calc_diff` lets the program `diff` compare the texts, src/diff.c:676. -/
def needsDisk (old new : Bytes) : Prop := (cstr old).length > 100000 ∨ (cstr new).length > 100000

instance (old new : Bytes) : Decidable (needsDisk old new) := by unfold needsDisk; infer_instance

/-- What is computed is computed by `ohcountCalcDiff`. -/
def answer (old new : Bytes) : M (Int × Int) := match ohcountCalcDiff ext junk old new with
  | some v => pure v
  | none => undefined

/-- The two file names that `ohcount_calc_diff_with_disk` makes, src/diff.c:624 and 646-647.  They are not freed.  Simplified: the names
are taken to be empty, nothing depends on them. -/
def tempNames : M Unit := do
  let _ ← malloc al (.text [])
  let _ ← malloc al (.text [])
  pure ()

/-- `ohcount_calc_diff`, src/diff.c:672-708. -/
def textDiff (old new : Bytes) : M (Int × Int) := do
  onlyIf (needsDisk old new) (tempNames al)
  answer ext junk old new

/-- Lines 314-321 of `ohcount_sourcefile_calc_loc_delta` in src/sourcefile.c. -/
def fillDelta (delta f t : Ptr) : M Unit := do
  let a ← getItem plEntry f
  let b ← getItem plEntry t
  let code ← textDiff al ext junk a.code.mem b.code.mem
  let d ← getItem deltaEntry delta
  setItem deltaEntry delta { d with codeAdded := code.1, codeRemoved := code.2 }
  let comments ← textDiff al ext junk a.comments.mem b.comments.mem
  let d ← getItem deltaEntry delta
  setItem deltaEntry delta { d with commentsAdded := comments.1, commentsRemoved := comments.2 }
  let d ← getItem deltaEntry delta
  if (a.blanksCount : Int) > b.blanksCount then setItem deltaEntry delta { d with blanksRemoved := a.blanksCount - b.blanksCount }
  else setItem deltaEntry delta { d with blanksAdded := b.blanksCount - a.blanksCount }

/-- Lines 305-323 of `ohcount_sourcefile_calc_loc_delta` in src/sourcefile.c; `pls` is the list of parsed languages of the second file. -/
def calcTail (lang : String) (delta blank f pls : Ptr) : M Ptr := do
  let l ← getNode pls
  let t ← pick lang blank l.head
  fillDelta al ext junk delta f t
  pure delta

/-- `ohcount_sourcefile_calc_loc_delta`, src/sourcefile.c:288-324.  `blank` is not freed. -/
def calcDelta (fromFile : Ptr) (lang : String) (toFile : Ptr) : M Ptr := do
  let delta ← itemNew deltaEntry al ⟨lang, 0, 0, 0, 0, 0, 0⟩
  let blank ← plNew env al lang 0
  let pls ← fileParsed env al disk fromFile
  let l ← getNode pls
  let f ← pick lang blank l.head
  let pls ← fileParsed env al disk toFile
  calcTail al ext junk lang delta blank f pls

/-- Lines 266-270 of `ohcount_sourcefile_diff` in src/sourcefile.c, and 276-280. -/
def diffOne (list fromFile : Ptr) (lang : String) (toFile : Ptr) : M Unit := do
  let delta ← calcDelta env al disk ext junk fromFile lang toFile
  listAdd deltaEntry al list delta
  free delta

/-- The first loop of `ohcount_sourcefile_diff`, src/sourcefile.c:265-272. -/
def diffFromLoop (list fromFile toFile iter : Ptr) : M Unit := do
  if iter = 0 then pure () else
    let it ← getNode iter
    let v ← getItem plEntry it.item
    diffOne env al disk ext junk list fromFile v.name toFile
    let it ← getNode iter
    diffFromLoop list fromFile toFile it.next
partial_fixpoint

/-- The second loop of `ohcount_sourcefile_diff`, src/sourcefile.c:274-283. -/
def diffToLoop (list fromFile toFile iter : Ptr) : M Unit := do
  if iter = 0 then pure () else
    let it ← getNode iter
    let v ← getItem plEntry it.item
    let old ← listGet deltaEntry v.name list
    onlyIf (old = 0) (diffOne env al disk ext junk list fromFile v.name toFile)
    let it ← getNode iter
    diffToLoop list fromFile toFile it.next
partial_fixpoint

/-- `ohcount_sourcefile_diff`, src/sourcefile.c:255-286. -/
def fileDiff (fromFile toFile : Ptr) : M Ptr := do
  let list ← listNew al
  let pls ← fileParsed env al disk fromFile
  let l ← getNode pls
  diffFromLoop env al disk ext junk list fromFile toFile l.head
  let pls ← fileParsed env al disk toFile
  let l ← getNode pls
  diffToLoop env al disk ext junk list fromFile toFile l.head
  pure list

end

/-! ### The blocks that are left behind -/

/-- By `ohcount_calc_diff`: two file names if the texts are large. -/
def textLoss (old new : Bytes) : Nat := if needsDisk old new then 2 else 0

/-- By `ohcount_sourcefile_calc_loc_delta`: `blank`, and the file names. -/
def deltaLoss (jb : Byte) (fromPls : List ParsedLanguage) (lang : String) (toPls : List ParsedLanguage) : Nat :=
  1 + textLoss (findLanguage jb lang fromPls).code.mem (findLanguage jb lang toPls).code.mem +
    textLoss (findLanguage jb lang fromPls).comments.mem (findLanguage jb lang toPls).comments.mem

/-- By the first loop of `ohcount_sourcefile_diff`. -/
def lossFrom (jb : Byte) (fromPls toPls pls : List ParsedLanguage) : Nat := (pls.map fun pl => deltaLoss jb fromPls pl.name toPls).sum

/-- By the second loop of `ohcount_sourcefile_diff`. -/
def lossTo (ext : Bytes → Bytes → Option Bytes) (junk : Junk) (jb : Byte) (fromPls toPls : List ParsedLanguage) : List ParsedLanguage → LocDeltaList → Nat
  | [], _ => 0
  | pl :: rest, l => match l.getDelta pl.name with
    | some _ => lossTo ext junk jb fromPls toPls rest l
    | none => deltaLoss jb fromPls pl.name toPls +
      (match calcLocDelta ext junk jb fromPls pl.name toPls with | some d => lossTo ext junk jb fromPls toPls rest (l.addDelta d) | none => 0)

/-- By `ohcount_sourcefile_diff`. -/
def diffLoss (ext : Bytes → Bytes → Option Bytes) (junk : Junk) (jb : Byte) (fromPls toPls : List ParsedLanguage) : Nat :=
  lossFrom jb fromPls toPls fromPls +
    (match diffFrom ext junk jb fromPls toPls fromPls [] with | some l => lossTo ext junk jb fromPls toPls toPls l | none => 0)

/-! ### One delta -/

section
variable {env : Env} {al : Alloc} {disk : Disk} {ext : Bytes → Bytes → Option Bytes} {junk : Junk}

/-- The parsed language that a pointer is to is part of what is in memory. -/
def PartOf (q : Ptr) (v : ParsedLanguage) (P : Asn) : Prop := ∃ R, P = cell q (.pl v) ⋆ R

theorem PartOf.more {q : Ptr} {v : ParsedLanguage} {P : Asn} (h : PartOf q v P) (Q : Asn) : PartOf q v (P ⋆ Q) := by
  obtain ⟨R, rfl⟩ := h
  exact ⟨R ⋆ Q, star_assoc ..⟩

theorem PartOf.more' {q : Ptr} {v : ParsedLanguage} {P : Asn} (h : PartOf q v P) (Q : Asn) : PartOf q v (Q ⋆ P) := by
  rw [star_comm]
  exact h.more Q

theorem PartOf.get {q : Ptr} {v : ParsedLanguage} {P : Asn} (h : PartOf q v P) : Does (getItem plEntry q) P v P := by
  obtain ⟨R, rfl⟩ := h
  exact Does.frame (getItem_does plEntry q v) R

theorem pick_does (jb : Byte) (lang : String) (blank p : Ptr) (ls : List String) : ∀ (xs2 xs1 : List (Ptr × Ptr)) (vs2 vs1 : List ParsedLanguage), xs1.length = vs1.length →
    Triple (pick lang blank (headPtr xs2)) (cell blank (.pl (.new jb lang 0)) ⋆ Spine p (xs1 ++ xs2) ls ⋆ Cells plEntry (xs1 ++ xs2) (vs1 ++ vs2))
      (fun q h => PartOf q (findLanguage jb lang vs2) (cell blank (.pl (.new jb lang 0)) ⋆ Spine p (xs1 ++ xs2) ls ⋆ Cells plEntry (xs1 ++ xs2) (vs1 ++ vs2)) ∧
        (cell blank (.pl (.new jb lang 0)) ⋆ Spine p (xs1 ++ xs2) ls ⋆ Cells plEntry (xs1 ++ xs2) (vs1 ++ vs2)) h)
  | [], xs1, [], vs1, hl => by
    rw [pick, show headPtr [] = 0 from rfl, if_pos rfl]
    exact Triple.pure fun h e => ⟨⟨_, rfl⟩, e⟩
  | [], xs1, v :: vs2, vs1, hl => by
    refine Triple.know (φ := False) (star_ne' (star_ne' fun h c _ => ?_)) fun h => h.elim
    have := c.length
    simp at this
    omega
  | x :: xs2, xs1, [], vs1, hl => by
    refine Triple.know (φ := False) (star_ne' (star_ne' fun h c _ => ?_)) fun h => h.elim
    have := c.length
    simp at this
    omega
  | x :: xs2, xs1, v :: vs2, vs1, hl => by
    have ih := pick_does jb lang blank p ls xs2 (xs1 ++ [x]) vs2 (vs1 ++ [v]) (by simp [hl])
    rw [List.append_assoc, List.append_assoc] at ih
    have hc : PartOf x.2 v (cell blank (.pl (.new jb lang 0)) ⋆ Spine p (xs1 ++ x :: xs2) ls ⋆ Cells plEntry (xs1 ++ x :: xs2) (vs1 ++ v :: vs2)) := by
      refine PartOf.more' (PartOf.more' ⟨Cells plEntry xs1 vs1 ⋆ Cells plEntry xs2 vs2, ?_⟩ _) _
      rw [Cells.append hl]
      show _ ⋆ (cell x.2 (.pl v) ⋆ _) = _
      ac_rfl
    refine Triple.know (star_ne' (star_ne fun h s => s.ne)) fun hx => ?_
    rw [pick, show headPtr (x :: xs2) = x.1 from rfl, if_neg hx]
    refine Triple.stepThen (star_left_comm ..) (getNth_does p xs1 x xs2 ls) fun n hn => ?_
    rw [hn.1, star_left_comm]
    refine Does.bind hc.get ?_
    unfold findLanguage
    by_cases e : lang = v.name
    · rw [if_pos e, if_pos e]
      exact Triple.pure fun h e => ⟨hc, e⟩
    · rw [if_neg e, if_neg e, hn.2.1]
      exact ih

theorem tempNames_does (hal : Good al) : Triple (tempNames al) emp (fun _ => Blocks 2) := by
  unfold tempNames
  refine Triple.bind (malloc_does hal _) fun p => ?_
  refine Triple.step (emp_star _).symm (malloc_does hal _) fun q => ?_
  exact Triple.pure fun h e => Blocks.star h (star_mono Blocks.cell Blocks.cell h e)

theorem textDiff_does (hal : Good al) (old new : Bytes) (v : Int × Int) (hv : ohcountCalcDiff ext junk old new = some v) :
    Does (textDiff al ext junk old new) emp v (Blocks (textLoss old new)) := by
  unfold textDiff
  refine Triple.bind (Q := fun _ => Blocks (textLoss old new)) (onlyIf_does (fun hc => ?_) (fun hc h e => ?_)) fun _ => ?_
  · rw [textLoss, if_pos hc]
    exact tempNames_does hal
  · rw [textLoss, if_neg hc]
    exact Blocks.emp h e
  · unfold answer
    rw [hv]
    exact Does.pure _ _

/-- More blocks that are left behind. -/
theorem lose {n k : Nat} {P : Asn} : ∀ h, (Blocks n ⋆ Blocks k ⋆ P) h → (Blocks (n + k) ⋆ P) h := by
  intro h e
  rw [← star_assoc] at e
  exact star_mono Blocks.star (fun _ e => e) h e

theorem fillDelta_does (hal : Good al) (jb : Byte) (lang : String) (fromPls toPls : List ParsedLanguage) (delta f t : Ptr) (W : Asn) (dv : LocDelta)
    (hf : PartOf f (findLanguage jb lang fromPls) W) (ht : PartOf t (findLanguage jb lang toPls) W)
    (hd : calcLocDelta ext junk jb fromPls lang toPls = some dv) :
    Does (fillDelta al ext junk delta f t) (cell delta (.delta ⟨lang, 0, 0, 0, 0, 0, 0⟩) ⋆ W) ()
      (Blocks (textLoss (findLanguage jb lang fromPls).code.mem (findLanguage jb lang toPls).code.mem +
        textLoss (findLanguage jb lang fromPls).comments.mem (findLanguage jb lang toPls).comments.mem) ⋆ cell delta (.delta dv) ⋆ W) := by
  unfold calcLocDelta at hd
  dsimp only at hd
  generalize findLanguage jb lang fromPls = a at *
  generalize findLanguage jb lang toPls = b at *
  obtain ⟨⟨ca, cr⟩, h1, hd⟩ := Option.bind_eq_some_iff.mp hd
  obtain ⟨⟨ma, mr⟩, h2, hd⟩ := Option.bind_eq_some_iff.mp hd
  unfold fillDelta
  refine Does.bind (hf.more' _).get ?_
  refine Does.bind (ht.more' _).get ?_
  refine Does.step (emp_star _).symm (textDiff_does hal _ _ _ h1) ?_
  refine Does.step (star_left_comm ..) (getItem_does deltaEntry delta _) ?_
  refine Does.step rfl (setItem_does deltaEntry delta _ _) ?_
  refine Does.step (emp_star _).symm (textDiff_does hal _ _ _ h2) ?_
  refine Does.step (star_left_comm ..) (getItem_does deltaEntry delta _) ?_
  refine Does.step rfl (setItem_does deltaEntry delta _ _) ?_
  refine Does.step rfl (getItem_does deltaEntry delta _) ?_
  have fin : ∀ d h, (cell delta (deltaEntry.cell d) ⋆ Blocks (textLoss a.comments.mem b.comments.mem) ⋆ Blocks (textLoss a.code.mem b.code.mem) ⋆ W) h →
      (Blocks (textLoss a.code.mem b.code.mem + textLoss a.comments.mem b.comments.mem) ⋆ cell delta (.delta d) ⋆ W) h := by
    intro d h e
    refine lose h ?_
    have e' : cell delta (deltaEntry.cell d) ⋆ Blocks (textLoss a.comments.mem b.comments.mem) ⋆ Blocks (textLoss a.code.mem b.code.mem) ⋆ W =
      Blocks (textLoss a.code.mem b.code.mem) ⋆ Blocks (textLoss a.comments.mem b.comments.mem) ⋆ cell delta (.delta d) ⋆ W := by
      show cell delta (.delta d) ⋆ _ = _
      ac_rfl
    rw [e'] at e
    exact e
  dsimp only at hd
  by_cases hb : (a.blanksCount : Int) > b.blanksCount
  · rw [if_pos hb] at hd ⊢
    injection hd with hd
    subst hd
    exact Does.last rfl (setItem_does deltaEntry delta _ _) fun h e => ⟨rfl, fin _ h e⟩
  · rw [if_neg hb] at hd ⊢
    injection hd with hd
    subst hd
    exact Does.last rfl (setItem_does deltaEntry delta _ _) fun h e => ⟨rfl, fin _ h e⟩

/-- The parsed languages of a list are part of what is in memory. -/
def ListIn (p : Ptr) (xs : List (Ptr × Ptr)) (ls : List String) (pls : List ParsedLanguage) (W : Asn) : Prop :=
  ∃ F, W = (Spine p xs ls ⋆ Cells plEntry xs pls) ⋆ F

theorem ListIn.more {p : Ptr} {xs : List (Ptr × Ptr)} {ls : List String} {pls : List ParsedLanguage} {W : Asn} (h : ListIn p xs ls pls W) (Q : Asn) : ListIn p xs ls pls (W ⋆ Q) := by
  obtain ⟨F, rfl⟩ := h
  exact ⟨F ⋆ Q, star_assoc ..⟩

theorem ListIn.more' {p : Ptr} {xs : List (Ptr × Ptr)} {ls : List String} {pls : List ParsedLanguage} {W : Asn} (h : ListIn p xs ls pls W) (Q : Asn) : ListIn p xs ls pls (Q ⋆ W) := by
  rw [star_comm]
  exact h.more Q

theorem ListIn.head {p : Ptr} {xs : List (Ptr × Ptr)} {ls : List String} {pls : List ParsedLanguage} {W : Asn} (h : ListIn p xs ls pls W) :
    Triple (getNode p) W (fun n k => n.head = headPtr xs ∧ W k) := by
  obtain ⟨F, rfl⟩ := h
  refine ((getHead_does p xs ls).frame (Cells plEntry xs pls ⋆ F)).pre ?_ |>.post ?_
  · intro h e
    rw [star_assoc] at e
    exact e
  · rintro n h ⟨h1, h2, d, e, ⟨a, b⟩, c⟩
    refine ⟨a, ?_⟩
    rw [star_assoc]
    exact ⟨h1, h2, d, e, b, c⟩

/-- A node of the list, and its entry. -/
theorem ListIn.nth {p : Ptr} {xs1 : List (Ptr × Ptr)} {x : Ptr × Ptr} {xs2 : List (Ptr × Ptr)} {ls : List String} {vs1 : List ParsedLanguage} {v : ParsedLanguage} {vs2 : List ParsedLanguage}
    {W : Asn} (h : ListIn p (xs1 ++ x :: xs2) ls (vs1 ++ v :: vs2) W) (hl : xs1.length = vs1.length) :
    Triple (getNode x.1) W (fun n k => (n.item = x.2 ∧ n.next = headPtr xs2) ∧ W k) ∧ PartOf x.2 v W ∧ ∀ k, W k → k 0 = none → x.1 ≠ 0 := by
  obtain ⟨F, rfl⟩ := h
  refine ⟨?_, ?_, ?_⟩
  · refine ((getNth_does p xs1 x xs2 ls).frame (Cells plEntry (xs1 ++ x :: xs2) (vs1 ++ v :: vs2) ⋆ F)).pre ?_ |>.post ?_
    · intro h e
      rw [star_assoc] at e
      exact e
    · rintro n h ⟨h1, h2, d, e, ⟨a, b⟩, c⟩
      refine ⟨⟨a.1, a.2.1⟩, ?_⟩
      rw [star_assoc]
      exact ⟨h1, h2, d, e, b, c⟩
  · refine PartOf.more (PartOf.more' ⟨Cells plEntry xs1 vs1 ⋆ Cells plEntry xs2 vs2, ?_⟩ _) _
    rw [Cells.append hl]
    show _ ⋆ (cell x.2 (.pl v) ⋆ _) = _
    ac_rfl
  · exact star_ne (star_ne fun h s => s.ne)

theorem ListIn.length {p : Ptr} {xs : List (Ptr × Ptr)} {ls : List String} {pls : List ParsedLanguage} {W : Asn} (h : ListIn p xs ls pls W) :
    ∀ k, W k → k 0 = none → xs.length = pls.length := by
  obtain ⟨F, rfl⟩ := h
  exact star_ne (star_ne' fun h c _ => c.length)

theorem ListIn.pick {p : Ptr} {xs : List (Ptr × Ptr)} {ls : List String} {pls : List ParsedLanguage} {W : Asn} (h : ListIn p xs ls pls W) (jb : Byte) (lang : String) (blank : Ptr) :
    Triple (Mem.pick lang blank (headPtr xs)) (cell blank (.pl (.new jb lang 0)) ⋆ W)
      (fun q h => PartOf q (findLanguage jb lang pls) (cell blank (.pl (.new jb lang 0)) ⋆ W) ∧ (cell blank (.pl (.new jb lang 0)) ⋆ W) h) := by
  obtain ⟨F, rfl⟩ := h
  have t := pick_does jb lang blank p ls xs [] pls [] rfl
  rw [← star_assoc]
  refine (t.frame F).post ?_
  rintro n h ⟨h1, h2, d, e, ⟨a, b⟩, c⟩
  exact ⟨a.more F, h1, h2, d, e, b, c⟩

theorem calcTail_does (hal : Good al) (jb : Byte) (lang : String) (fromPls toPls : List ParsedLanguage) (delta blank f p : Ptr) (xs : List (Ptr × Ptr)) (ls : List String) (W : Asn) (dv : LocDelta)
    (hf : PartOf f (findLanguage jb lang fromPls) (cell blank (.pl (.new jb lang 0)) ⋆ W)) (ht : ListIn p xs ls toPls W) (hd : calcLocDelta ext junk jb fromPls lang toPls = some dv) :
    Does (calcTail al ext junk lang delta blank f p) (cell delta (.delta ⟨lang, 0, 0, 0, 0, 0, 0⟩) ⋆ cell blank (.pl (.new jb lang 0)) ⋆ W) delta
      (Blocks (deltaLoss jb fromPls lang toPls) ⋆ cell delta (.delta dv) ⋆ W) := by
  unfold calcTail
  refine ((ht.more' _).more' _).head.then fun n hn => ?_
  rw [hn]
  refine Triple.stepThen (star_comm ..) (ht.pick jb lang blank) fun t hq => ?_
  rw [star_comm]
  refine Does.bind (fillDelta_does hal jb lang fromPls toPls delta f t _ dv hf hq hd) ?_
  refine Triple.pure fun h e => ⟨rfl, ?_⟩
  unfold deltaLoss
  rw [Nat.add_assoc, Nat.add_comm]
  refine lose h ?_
  generalize Blocks (textLoss _ _ + textLoss _ _) = B at *
  have e' : B ⋆ cell delta (.delta dv) ⋆ cell blank (.pl (.new jb lang 0)) ⋆ W = cell blank (.pl (.new jb lang 0)) ⋆ B ⋆ cell delta (.delta dv) ⋆ W := by ac_rfl
  rw [e'] at e
  have := star_mono Blocks.cell (fun _ e => e) h e
  rw [star_left_comm] at this
  exact this

/-- A source file that is parsed is part of what is in memory. -/
structure ParsedIn (env : Env) (al : Alloc) (disk : Disk) (a p : Ptr) (xs : List (Ptr × Ptr)) (ls : List String) (pls : List ParsedLanguage) (W : Asn) : Prop where
  get : Does (fileParsed env al disk a) W p W
  list : ListIn p xs ls pls W

theorem ParsedIn.more {a p : Ptr} {xs : List (Ptr × Ptr)} {ls : List String} {pls : List ParsedLanguage} {W : Asn} (h : ParsedIn env al disk a p xs ls pls W) (Q : Asn) :
    ParsedIn env al disk a p xs ls pls (W ⋆ Q) := ⟨Does.frame h.get Q, h.list.more Q⟩

theorem ParsedIn.more' {a p : Ptr} {xs : List (Ptr × Ptr)} {ls : List String} {pls : List ParsedLanguage} {W : Asn} (h : ParsedIn env al disk a p xs ls pls W) (Q : Asn) :
    ParsedIn env al disk a p xs ls pls (Q ⋆ W) := by
  rw [star_comm]
  exact h.more Q

/-- The first part of `calcDelta`, and what is left of it. -/
theorem calcDelta_start (hal : Good al) (lang : String) (a b p : Ptr) (xs : List (Ptr × Ptr)) (ls : List String) (fromPls : List ParsedLanguage) (W G : Asn) (R : Ptr → Asn)
    (ha : ParsedIn env al disk a p xs ls fromPls W)
    (t : ∀ delta blank f, PartOf f (findLanguage env.junk lang fromPls) (cell blank (.pl (.new env.junk lang 0)) ⋆ W) →
      Triple (do let pls ← fileParsed env al disk b; calcTail al ext junk lang delta blank f pls)
        (G ⋆ cell delta (.delta ⟨lang, 0, 0, 0, 0, 0, 0⟩) ⋆ cell blank (.pl (.new env.junk lang 0)) ⋆ W) R) :
    Triple (calcDelta env al disk ext junk a lang b) (G ⋆ W) R := by
  unfold calcDelta
  refine Triple.step (emp_star _).symm (itemNew_does deltaEntry hal _) fun delta => ?_
  refine Triple.step (emp_star _).symm (itemNew_does plEntry hal _) fun blank => ?_
  refine Does.bind (((ha.more' _).more' _).more' _).get ?_
  refine (((ha.list.more' _).more' _).more' _).head.then fun n hn => ?_
  rw [hn]
  refine Triple.stepThen (A := cell blank (.pl (.new env.junk lang 0)) ⋆ W) (F := G ⋆ cell delta (.delta ⟨lang, 0, 0, 0, 0, 0, 0⟩)) (by
    show cell blank (.pl _) ⋆ cell delta (.delta _) ⋆ _ = _
    unfold Int.toNat
    ac_rfl) (ha.list.pick env.junk lang blank) fun f hf => ?_
  have := t delta blank f hf
  refine this.pre fun h e => ?_
  rw [star_comm, star_assoc] at e
  exact e

/-- A delta of two files that are parsed. -/
theorem calcDelta_does (hal : Good al) (lang : String) (a b p q : Ptr) (xs ys : List (Ptr × Ptr)) (ls ms : List String) (fromPls toPls : List ParsedLanguage) (W : Asn) (dv : LocDelta)
    (ha : ParsedIn env al disk a p xs ls fromPls W) (hb : ParsedIn env al disk b q ys ms toPls W) (hd : calcLocDelta ext junk env.junk fromPls lang toPls = some dv) :
    Triple (calcDelta env al disk ext junk a lang b) W (fun delta => Blocks (deltaLoss env.junk fromPls lang toPls) ⋆ cell delta (.delta dv) ⋆ W) := by
  rw [← emp_star W]
  refine calcDelta_start hal lang a b p xs ls fromPls W emp _ ha fun delta blank f hf => ?_
  rw [emp_star, emp_star]
  refine Does.bind ((hb.more' _).more' _).get ?_
  refine (calcTail_does hal env.junk lang fromPls toPls delta blank f q ys ms W dv hf hb.list hd).post ?_
  rintro x h ⟨rfl, e⟩
  exact e

/-- `s` at `p`, parsed: its list of parsed languages taken apart. -/
def Opened (p : Ptr) (s : SourceFile) (k : Slots) (pls : List ParsedLanguage) (xs : List (Ptr × Ptr)) (ls : List String) : Asn :=
  (Spine k.pp xs ls ⋆ Cells plEntry xs pls) ⋆ cell p (.file (fileRec s k)) ⋆ RestP s k

theorem Opened.of {p : Ptr} {s : SourceFile} {k : Slots} {pls : List ParsedLanguage} (hp : s.parsed = some pls) : ∀ h, FileAt p s k h → (ex fun xs => ex fun ls => Opened p s k pls xs ls) h := by
  intro h e
  rw [FileAt.atP, hp] at e
  obtain ⟨h1, h2, d, j, a, b⟩ := e
  obtain ⟨xs, ls, a⟩ := Lst.split _ a
  exact ⟨xs, ls, h1, h2, d, j, a, b⟩

theorem Opened.close {p : Ptr} {s : SourceFile} {k : Slots} {pls : List ParsedLanguage} {xs : List (Ptr × Ptr)} {ls : List String} (hp : s.parsed = some pls) :
    ∀ h, Opened p s k pls xs ls h → File p s h := by
  intro h e
  refine ⟨k, ?_⟩
  show FileAt p s k h
  rw [FileAt.atP, hp]
  exact star_mono Lst.unsplit (fun _ e => e) h e

theorem Opened.parsed (p : Ptr) (s : SourceFile) (k : Slots) (pls : List ParsedLanguage) (xs : List (Ptr × Ptr)) (ls : List String) :
    ParsedIn env al disk p k.pp xs ls pls (Opened p s k pls xs ls) where
  list := ⟨_, rfl⟩
  get := by
    refine Triple.know (φ := k.pp ≠ 0) (star_ne (star_ne fun h s => s.ne_head)) fun hk => ?_
    unfold fileParsed fileParse
    rw [bind_assoc]
    refine Does.step (star_left_comm ..) (getFile_does p _) ?_
    unfold onlyIf
    rw [if_neg (show ¬ (fileRec s k).parsed = 0 from hk)]
    refine Does.bind (Does.pure () _) ?_
    refine Does.step rfl (getFile_does p _) ?_
    refine Triple.pure fun h e => ⟨rfl, ?_⟩
    rw [star_left_comm] at e
    exact e

/-- A file that may not be parsed. -/
theorem opened_does (hal : Good al) (ok : EnvOk env) (p : Ptr) (s s' : SourceFile) (hs : SizeOk s) (h : s.doParse env disk = some s') (pls : List ParsedLanguage) (hp : s'.parsed = some pls) :
    Triple (fileParsed env al disk p) (File p s) (fun q => ex fun k => ex fun xs => ex fun ls => fact (q = k.pp) ⋆ Opened p s' k pls xs ls) := by
  refine Triple.ex fun k => ?_
  refine (fileParsed_does hal ok p s s' hs h k).post fun q h e => ?_
  obtain ⟨c, e⟩ := e
  obtain ⟨xs, ls, e⟩ := Opened.of hp h e
  exact ⟨_, xs, ls, fact_star.mpr ⟨rfl, e⟩⟩

/-! ### The loops -/

theorem Triple.also {α : Type} {f : M α} {P : Asn} {Q : α → Asn} {φ : α → Prop} {R : Asn} (t : Triple f P (fun x h => φ x ∧ Q x h)) :
    Triple f (P ⋆ R) (fun x h => φ x ∧ (Q x ⋆ R) h) := by
  refine (t.frame R).post ?_
  rintro x h ⟨h1, h2, d, e, ⟨a, b⟩, c⟩
  exact ⟨a, h1, h2, d, e, b, c⟩

/-- Lines 268-269 of src/sourcefile.c. -/
theorem diffOne_end (hal : Good al) (list delta : Ptr) (l : LocDeltaList) (dv : LocDelta) (n : Nat) (W : Asn) :
    Does (do listAdd deltaEntry al list delta; free delta) ((Blocks n ⋆ cell delta (.delta dv) ⋆ W) ⋆ Lst deltaEntry list l) ()
      (Blocks n ⋆ Lst deltaEntry list (l.addDelta dv) ⋆ W) := by
  refine Does.step (A := Lst deltaEntry list l ⋆ cell delta (deltaEntry.cell dv)) (F := Blocks n ⋆ W) (by
    show _ = (_ ⋆ cell delta (.delta dv)) ⋆ _
    ac_rfl) (listAdd_does hal list delta l dv) ?_
  refine Does.last (A := cell delta (deltaEntry.cell dv)) (F := Blocks n ⋆ Lst deltaEntry list (add deltaEntry l dv) ⋆ W) (by ac_rfl) (free_does delta _) fun h e => ⟨rfl, ?_⟩
  rw [emp_star] at e
  rw [add_delta]
  exact e

theorem diffOne_does (hal : Good al) (lang : String) (list a b p q : Ptr) (xs ys : List (Ptr × Ptr)) (ls ms : List String) (fromPls toPls : List ParsedLanguage) (W : Asn) (l : LocDeltaList) (dv : LocDelta)
    (ha : ParsedIn env al disk a p xs ls fromPls W) (hb : ParsedIn env al disk b q ys ms toPls W) (hd : calcLocDelta ext junk env.junk fromPls lang toPls = some dv) :
    Does (diffOne env al disk ext junk list a lang b) (Lst deltaEntry list l ⋆ W) () (Blocks (deltaLoss env.junk fromPls lang toPls) ⋆ Lst deltaEntry list (l.addDelta dv) ⋆ W) := by
  unfold diffOne
  refine Triple.step (star_comm ..) (calcDelta_does hal lang a b p q xs ys ls ms fromPls toPls W dv ha hb hd) fun delta => ?_
  exact diffOne_end hal list delta l dv _ W

/-- The first delta: the second file may not be parsed yet. -/
theorem diffOne_first (hal : Good al) (ok : EnvOk env) (lang : String) (list a b p : Ptr) (xs : List (Ptr × Ptr)) (ls : List String) (fromPls toPls : List ParsedLanguage) (W : Asn) (l : LocDeltaList)
    (dv : LocDelta) (s s' : SourceFile) (hs : SizeOk s) (h : s.doParse env disk = some s') (hp : s'.parsed = some toPls)
    (ha : ParsedIn env al disk a p xs ls fromPls W) (hd : calcLocDelta ext junk env.junk fromPls lang toPls = some dv) :
    Triple (diffOne env al disk ext junk list a lang b) (Lst deltaEntry list l ⋆ W ⋆ File b s)
      (fun _ => ex fun k => ex fun ys => ex fun ms => Blocks (deltaLoss env.junk fromPls lang toPls) ⋆ Lst deltaEntry list (l.addDelta dv) ⋆ W ⋆ Opened b s' k toPls ys ms) := by
  unfold diffOne
  refine Triple.step (B := fun delta => ex fun k => ex fun ys => ex fun ms => Blocks (deltaLoss env.junk fromPls lang toPls) ⋆ cell delta (.delta dv) ⋆ W ⋆ Opened b s' k toPls ys ms)
    (F := Lst deltaEntry list l) (A := File b s ⋆ W) (by ac_rfl) (calcDelta_start hal lang a b p xs ls fromPls W (File b s) _ ha fun delta blank f hf => ?_) fun delta => ?_
  · refine Triple.step rfl (opened_does hal ok b s s' hs h toPls hp) fun q => ?_
    rw [ex_star]
    refine Triple.ex fun k => ?_
    rw [ex_star]
    refine Triple.ex fun ys => ?_
    rw [ex_star]
    refine Triple.ex fun ms => ?_
    rw [star_assoc]
    refine Triple.fact fun hq => ?_
    subst hq
    have hl := (Opened.parsed (env := env) (al := al) (disk := disk) b s' k toPls ys ms).list
    have hf' := hf.more (Opened b s' k toPls ys ms)
    rw [star_assoc] at hf'
    refine Triple.pre ((calcTail_does hal env.junk lang fromPls toPls delta blank f k.pp ys ms (W ⋆ Opened b s' k toPls ys ms) dv hf' (hl.more' _) hd).post ?_) fun h e => ?_
    · rintro x h ⟨rfl, e⟩
      exact ⟨k, ys, ms, e⟩
    · rw [star_comm, star_assoc, star_assoc] at e
      exact e
  · rw [ex_star]
    refine Triple.ex fun k => ?_
    rw [ex_star]
    refine Triple.ex fun ys => ?_
    rw [ex_star]
    refine Triple.ex fun ms => ?_
    refine (diffOne_end hal list delta l dv _ _).post ?_
    rintro _ h ⟨_, e⟩
    exact ⟨k, ys, ms, e⟩

theorem diffFromLoop_does (hal : Good al) (list a b p q : Ptr) (xs ys : List (Ptr × Ptr)) (ls ms : List String) (fromPls toPls : List ParsedLanguage) (W : Asn)
    (ha : ParsedIn env al disk a p xs ls fromPls W) (hb : ParsedIn env al disk b q ys ms toPls W) :
    ∀ (xs2 xs1 : List (Ptr × Ptr)) (vs2 vs1 : List ParsedLanguage) (l l' : LocDeltaList), xs = xs1 ++ xs2 → fromPls = vs1 ++ vs2 → xs1.length = vs1.length →
    diffFrom ext junk env.junk fromPls toPls vs2 l = some l' →
    Does (diffFromLoop env al disk ext junk list a b (headPtr xs2)) (Lst deltaEntry list l ⋆ W) () (Blocks (lossFrom env.junk fromPls toPls vs2) ⋆ Lst deltaEntry list l' ⋆ W)
  | [], xs1, [], vs1, l, l', _, _, _, h => by
    injection h with h
    subst h
    rw [diffFromLoop, show headPtr [] = 0 from rfl, if_pos rfl]
    exact Triple.pure fun h e => ⟨rfl, none_lost h e⟩
  | [], xs1, v :: vs2, vs1, l, l', hx, hv, hl, h => by
    refine Triple.know (φ := False) (star_ne' fun h w h0 => ?_) fun h => h.elim
    have := ha.list.length h w h0
    simp [hx, hv] at this
    omega
  | x :: xs2, xs1, [], vs1, l, l', hx, hv, hl, h => by
    refine Triple.know (φ := False) (star_ne' fun h w h0 => ?_) fun h => h.elim
    have := ha.list.length h w h0
    simp [hx, hv] at this
    omega
  | x :: xs2, xs1, v :: vs2, vs1, l, l', hx, hv, hl, h => by
    unfold diffFrom at h
    obtain ⟨dv, hd, h⟩ := Option.bind_eq_some_iff.mp h
    have ih := diffFromLoop_does hal list a b p q xs ys ls ms fromPls toPls W ha hb xs2 (xs1 ++ [x]) vs2 (vs1 ++ [v]) (l.addDelta dv) l' (by simp [hx]) (by simp [hv]) (by simp [hl]) h
    have hn : ListIn p (xs1 ++ x :: xs2) ls (vs1 ++ v :: vs2) W := by rw [← hx, ← hv]; exact ha.list
    obtain ⟨n1, n2, n3⟩ := hn.nth hl
    refine Triple.know (star_ne' n3) fun hx1 => ?_
    rw [diffFromLoop, show headPtr (x :: xs2) = x.1 from rfl, if_neg hx1]
    refine Triple.stepThen (star_comm ..) n1 fun n hn => ?_
    rw [hn.1]
    refine Does.bind (n2.more _).get ?_
    refine Does.step (F := emp) (by rw [star_emp, star_comm]) (diffOne_does hal v.name list a b p q xs ys ls ms fromPls toPls W l dv ha hb hd) ?_
    rw [star_emp]
    refine Triple.stepThen (A := W) (F := Blocks (deltaLoss env.junk fromPls v.name toPls) ⋆ Lst deltaEntry list (l.addDelta dv)) (by ac_rfl) n1 fun n hn => ?_
    rw [hn.2]
    refine Does.last (A := Lst deltaEntry list (l.addDelta dv) ⋆ W) (F := Blocks (deltaLoss env.junk fromPls v.name toPls)) (by ac_rfl) ih fun h e => ⟨rfl, ?_⟩
    rw [star_comm] at e
    exact lose h e

theorem listGet_does {V : Type} {E : Entry V} (lang : String) (p : Ptr) (vs : List V) :
    Triple (listGet E lang p) (Lst E p vs) (fun q h => (q = 0 ↔ find E lang vs = none) ∧ Lst E p vs h) := by
  intro h r d fin l
  obtain ⟨bs, h1, h2⟩ := l.whole (m := join h r) (fun a c e => by simp [join, e])
  obtain ⟨q, e, hq⟩ := listGet_run (lang := lang) fin.1 h1
  refine ⟨q, h, e, d, fin, ?_, l⟩
  cases hf : find E lang vs with
  | none => rw [hf] at hq; exact ⟨fun _ => rfl, fun _ => hq⟩
  | some v =>
    rw [hf] at hq
    refine ⟨fun e => ?_, fun e => by cases e⟩
    have := hq.1
    rw [e, fin.1] at this
    cases this

theorem diffToLoop_does (hal : Good al) (list a b p q : Ptr) (xs ys : List (Ptr × Ptr)) (ls ms : List String) (fromPls toPls : List ParsedLanguage) (W : Asn)
    (ha : ParsedIn env al disk a p xs ls fromPls W) (hb : ParsedIn env al disk b q ys ms toPls W) :
    ∀ (ys2 ys1 : List (Ptr × Ptr)) (vs2 vs1 : List ParsedLanguage) (l l' : LocDeltaList), ys = ys1 ++ ys2 → toPls = vs1 ++ vs2 → ys1.length = vs1.length →
    diffTo ext junk env.junk fromPls toPls vs2 l = some l' →
    Does (diffToLoop env al disk ext junk list a b (headPtr ys2)) (Lst deltaEntry list l ⋆ W) ()
      (Blocks (lossTo ext junk env.junk fromPls toPls vs2 l) ⋆ Lst deltaEntry list l' ⋆ W)
  | [], xs1, [], vs1, l, l', _, _, _, h => by
    injection h with h
    subst h
    rw [diffToLoop, show headPtr [] = 0 from rfl, if_pos rfl]
    exact Triple.pure fun h e => ⟨rfl, none_lost h e⟩
  | [], xs1, v :: vs2, vs1, l, l', hx, hv, hl, h => by
    refine Triple.know (φ := False) (star_ne' fun h w h0 => ?_) fun h => h.elim
    have := hb.list.length h w h0
    simp [hx, hv] at this
    omega
  | x :: xs2, xs1, [], vs1, l, l', hx, hv, hl, h => by
    refine Triple.know (φ := False) (star_ne' fun h w h0 => ?_) fun h => h.elim
    have := hb.list.length h w h0
    simp [hx, hv] at this
    omega
  | x :: xs2, xs1, v :: vs2, vs1, l, l', hx, hv, hl, h => by
    have hn : ListIn q (xs1 ++ x :: xs2) ms (vs1 ++ v :: vs2) W := by rw [← hx, ← hv]; exact hb.list
    obtain ⟨n1, n2, n3⟩ := hn.nth hl
    refine Triple.know (star_ne' n3) fun hx1 => ?_
    rw [diffToLoop, show headPtr (x :: xs2) = x.1 from rfl, if_neg hx1]
    refine Triple.stepThen (star_comm ..) n1 fun n hn => ?_
    rw [hn.1]
    refine Does.bind (n2.more _).get ?_
    refine Triple.stepThen (star_comm ..) (listGet_does v.name list l) fun old ho => ?_
    rw [← get_delta] at ho
    unfold diffTo at h
    unfold lossTo
    cases hg : l.getDelta v.name with
    | some d =>
      rw [hg] at h ho
      have ih := diffToLoop_does hal list a b p q xs ys ls ms fromPls toPls W ha hb xs2 (xs1 ++ [x]) vs2 (vs1 ++ [v]) l l' (by simp [hx]) (by simp [hv]) (by simp [hl]) h
      have h0 : ¬ old = 0 := fun e => by cases ho.mp e
      unfold onlyIf
      rw [if_neg h0]
      refine Does.bind (Does.pure () _) ?_
      refine Triple.stepThen (star_comm ..) n1 fun n hn => ?_
      rw [hn.2, star_comm]
      exact ih
    | none =>
      rw [hg] at h ho
      dsimp only at h
      obtain ⟨dv, hd, h⟩ := Option.bind_eq_some_iff.mp h
      have ih := diffToLoop_does hal list a b p q xs ys ls ms fromPls toPls W ha hb xs2 (xs1 ++ [x]) vs2 (vs1 ++ [v]) (l.addDelta dv) l' (by simp [hx]) (by simp [hv]) (by simp [hl]) h
      rw [hd]
      dsimp only
      unfold onlyIf
      rw [if_pos (ho.mpr rfl)]
      refine Does.step (F := emp) (by rw [star_emp]) (diffOne_does hal v.name list a b p q xs ys ls ms fromPls toPls W l dv ha hb hd) ?_
      rw [star_emp]
      refine Triple.stepThen (A := W) (F := Blocks (deltaLoss env.junk fromPls v.name toPls) ⋆ Lst deltaEntry list (l.addDelta dv)) (by ac_rfl) n1 fun n hn => ?_
      rw [hn.2]
      refine Does.last (A := Lst deltaEntry list (l.addDelta dv) ⋆ W) (F := Blocks (deltaLoss env.junk fromPls v.name toPls)) (by ac_rfl) ih fun h e => ⟨rfl, ?_⟩
      rw [star_comm] at e
      exact lose h e

/-! ### Two files -/

/-- Lines 265-285 of `ohcount_sourcefile_diff` when both files are parsed. -/
theorem fileDiff_rest (hal : Good al) (list a b p q : Ptr) (xs ys : List (Ptr × Ptr)) (ls ms : List String) (fromPls toPls : List ParsedLanguage) (W : Asn)
    (ha : ParsedIn env al disk a p xs ls fromPls W) (hb : ParsedIn env al disk b q ys ms toPls W)
    (xs2 xs1 : List (Ptr × Ptr)) (vs2 vs1 : List ParsedLanguage) (l l1 l2 : LocDeltaList) (hx : xs = xs1 ++ xs2) (hv : fromPls = vs1 ++ vs2) (hl : xs1.length = vs1.length)
    (h1 : diffFrom ext junk env.junk fromPls toPls vs2 l = some l1) (h2 : diffTo ext junk env.junk fromPls toPls toPls l1 = some l2) :
    Does (do
      diffFromLoop env al disk ext junk list a b (headPtr xs2)
      let pls ← fileParsed env al disk b
      let l ← getNode pls
      diffToLoop env al disk ext junk list a b l.head
      pure list) (Lst deltaEntry list l ⋆ W) list
      (Blocks (lossFrom env.junk fromPls toPls vs2 + lossTo ext junk env.junk fromPls toPls toPls l1) ⋆ Lst deltaEntry list l2 ⋆ W) := by
  refine Does.bind (diffFromLoop_does hal list a b p q xs ys ls ms fromPls toPls W ha hb xs2 xs1 vs2 vs1 l l1 hx hv hl h1) ?_
  refine Does.bind ((hb.more' _).more' _).get ?_
  refine ((hb.list.more' _).more' _).head.then fun n hn => ?_
  rw [hn]
  refine Does.step (star_comm ..) (diffToLoop_does hal list a b p q xs ys ls ms fromPls toPls W ha hb ys [] toPls [] l1 l2 rfl rfl rfl h2) ?_
  refine Triple.pure fun h e => ⟨rfl, ?_⟩
  rw [star_comm] at e
  exact lose h e

theorem sourcefileDiff_some {fromPls toPls : List ParsedLanguage} {jb : Byte} {l : LocDeltaList} (h : sourcefileDiff ext junk jb fromPls toPls = some l) :
    ∃ l1, diffFrom ext junk jb fromPls toPls fromPls [] = some l1 ∧ diffTo ext junk jb fromPls toPls toPls l1 = some l ∧
      diffLoss ext junk jb fromPls toPls = lossFrom jb fromPls toPls fromPls + lossTo ext junk jb fromPls toPls toPls l1 := by
  obtain ⟨l1, h1, h2⟩ := Option.bind_eq_some_iff.mp h
  exact ⟨l1, h1, h2, by unfold diffLoss; rw [h1]⟩

/-- A file is compared with itself. -/
theorem fileDiff_self (hal : Good al) (ok : EnvOk env) (a : Ptr) (s s' : SourceFile) (hs : SizeOk s) (h : s.doParse env disk = some s') (pls : List ParsedLanguage) (hp : s'.parsed = some pls)
    (l : LocDeltaList) (hd : sourcefileDiff ext junk env.junk pls pls = some l) :
    Triple (fileDiff env al disk ext junk a a) (File a s) (fun q => Blocks (diffLoss ext junk env.junk pls pls) ⋆ Lst deltaEntry q l ⋆ File a s') := by
  obtain ⟨l1, h1, h2, h3⟩ := sourcefileDiff_some hd
  unfold fileDiff
  refine Triple.step (emp_star _).symm (listNew_does (E := deltaEntry) hal) fun list => ?_
  refine Triple.step (star_comm ..) (opened_does hal ok a s s' hs h pls hp) fun q => ?_
  rw [ex_star]
  refine Triple.ex fun k => ?_
  rw [ex_star]
  refine Triple.ex fun xs => ?_
  rw [ex_star]
  refine Triple.ex fun ls => ?_
  rw [star_assoc]
  refine Triple.fact fun hq => ?_
  subst hq
  have ha := Opened.parsed (env := env) (al := al) (disk := disk) a s' k pls xs ls
  refine (ha.list.more _).head.then fun n hn => ?_
  rw [hn, star_comm]
  refine (fileDiff_rest hal list a a k.pp k.pp xs xs ls ls pls pls _ ha ha xs [] pls [] [] l1 l rfl rfl rfl h1 h2).post ?_
  rintro x h ⟨rfl, e⟩
  rw [h3]
  exact star_mono (fun _ e => e) (star_mono (fun _ e => e) (Opened.close hp)) h e

/-- Two files are compared. -/
theorem fileDiff_does (hal : Good al) (ok : EnvOk env) (a b : Ptr) (s s' t t' : SourceFile) (hs : SizeOk s) (h : s.doParse env disk = some s') (ht : SizeOk t) (h' : t.doParse env disk = some t')
    (fromPls toPls : List ParsedLanguage) (hp : s'.parsed = some fromPls) (hp' : t'.parsed = some toPls)
    (l : LocDeltaList) (hd : sourcefileDiff ext junk env.junk fromPls toPls = some l) :
    Triple (fileDiff env al disk ext junk a b) (File a s ⋆ File b t) (fun q => Blocks (diffLoss ext junk env.junk fromPls toPls) ⋆ Lst deltaEntry q l ⋆ File a s' ⋆ File b t') := by
  obtain ⟨l1, h1, h2, h3⟩ := sourcefileDiff_some hd
  rw [h3]
  unfold fileDiff
  refine Triple.step (emp_star _).symm (listNew_does (E := deltaEntry) hal) fun list => ?_
  refine Triple.step (star_left_comm ..) (opened_does hal ok a s s' hs h fromPls hp) fun q => ?_
  rw [ex_star]
  refine Triple.ex fun k => ?_
  rw [ex_star]
  refine Triple.ex fun xs => ?_
  rw [ex_star]
  refine Triple.ex fun ls => ?_
  rw [star_assoc]
  refine Triple.fact fun hq => ?_
  subst hq
  have ha := Opened.parsed (env := env) (al := al) (disk := disk) a s' k fromPls xs ls
  refine (ha.list.more _).head.then fun n hn => ?_
  rw [hn, star_left_comm]
  have close : ∀ {k' : Slots} {ys : List (Ptr × Ptr)} {ms : List String} {n : Nat} {l : LocDeltaList} (h : Mem),
      (Blocks n ⋆ Lst deltaEntry list l ⋆ Opened a s' k fromPls xs ls ⋆ Opened b t' k' toPls ys ms) h → (Blocks n ⋆ Lst deltaEntry list l ⋆ File a s' ⋆ File b t') h :=
    star_mono (fun _ e => e) (star_mono (fun _ e => e) (star_mono (Opened.close hp) (Opened.close hp')))
  refine Triple.know (φ := xs.length = fromPls.length) (star_ne' (star_ne ha.list.length)) fun hlen => ?_
  cases xs with
  | nil =>
    cases fromPls with
    | cons => cases hlen
    | nil =>
      injection h1 with h1
      subst h1
      rw [diffFromLoop, show headPtr [] = 0 from rfl, if_pos rfl]
      refine Does.bind (Does.pure () _) ?_
      refine Triple.step (A := File b t) (F := Lst deltaEntry list [] ⋆ Opened a s' k [] [] ls) (by ac_rfl) (opened_does hal ok b t t' ht h' toPls hp') fun q => ?_
      rw [ex_star]
      refine Triple.ex fun k' => ?_
      rw [ex_star]
      refine Triple.ex fun ys => ?_
      rw [ex_star]
      refine Triple.ex fun ms => ?_
      rw [star_assoc]
      refine Triple.fact fun hq => ?_
      subst hq
      have hb := Opened.parsed (env := env) (al := al) (disk := disk) b t' k' toPls ys ms
      refine (hb.list.more _).head.then fun n hn => ?_
      rw [hn]
      refine Does.step (A := Lst deltaEntry list [] ⋆ Opened a s' k [] [] ls ⋆ Opened b t' k' toPls ys ms) (F := emp) (by rw [star_emp]; ac_rfl)
        (diffToLoop_does hal list a b k.pp k'.pp [] ys ls ms [] toPls _ (ha.more _) (hb.more' _) ys [] toPls [] [] l rfl rfl rfl h2) ?_
      rw [star_emp]
      refine Triple.pure fun h e => ?_
      rw [show lossFrom env.junk [] toPls [] = 0 from rfl, Nat.zero_add]
      exact close h e
  | cons x xs =>
    cases fromPls with
    | nil => cases hlen
    | cons v vs =>
      unfold diffFrom at h1
      obtain ⟨dv, hd, h1⟩ := Option.bind_eq_some_iff.mp h1
      have hl1 : ListIn k.pp ([] ++ x :: xs) ls ([] ++ v :: vs) (Opened a s' k (v :: vs) (x :: xs) ls) := ha.list
      obtain ⟨n1, n2, n3⟩ := hl1.nth rfl
      refine Triple.know (star_ne' (star_ne n3)) fun hx1 => ?_
      rw [diffFromLoop, show headPtr (x :: xs) = x.1 from rfl, if_neg hx1]
      rw [bind_assoc]
      refine Triple.stepThen (star_left_comm ..) n1 fun n hn => ?_
      rw [hn.1, bind_assoc]
      refine Does.bind (n2.more _).get ?_
      rw [bind_assoc]
      refine Triple.step (F := emp) (by rw [star_emp, star_left_comm])
        (diffOne_first hal ok v.name list a b k.pp (x :: xs) ls (v :: vs) toPls _ [] dv t t' ht h' hp' ha hd) fun _ => ?_
      rw [star_emp]
      refine Triple.ex fun k' => Triple.ex fun ys => Triple.ex fun ms => ?_
      have hb := Opened.parsed (env := env) (al := al) (disk := disk) b t' k' toPls ys ms
      rw [bind_assoc]
      refine Triple.stepThen (A := Opened a s' k (v :: vs) (x :: xs) ls)
        (F := Blocks (deltaLoss env.junk (v :: vs) v.name toPls) ⋆ Lst deltaEntry list (LocDeltaList.addDelta [] dv) ⋆ Opened b t' k' toPls ys ms) (by ac_rfl) n1 fun n hn => ?_
      rw [hn.2]
      refine Does.last (A := Lst deltaEntry list (LocDeltaList.addDelta [] dv) ⋆ Opened a s' k (v :: vs) (x :: xs) ls ⋆ Opened b t' k' toPls ys ms)
        (F := Blocks (deltaLoss env.junk (v :: vs) v.name toPls)) (by ac_rfl)
        (fileDiff_rest hal list a b k.pp k'.pp (x :: xs) ys ls ms (v :: vs) toPls _ (ha.more _) (hb.more' _) xs [x] vs [v] _ l1 l rfl rfl rfl h1 h2) fun h e => ?_
      refine close (k' := k') (ys := ys) (ms := ms) h ?_
      rw [star_comm] at e
      have e := lose h e
      rw [← Nat.add_assoc] at e
      exact e

end

end Ohcount.Mem
