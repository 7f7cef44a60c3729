import Verif.MemFiles
import Verif.MemHistory

/-!
What the functions of `MemFile.lean` do for the counts and the licenses of a source file, and when it is freed.
-/

namespace Ohcount.Mem

section
variable {env : Env} {al : Alloc} {disk : Disk}

theorem Triple.stepThen {α β : Type} {f : M α} {g : α → M β} {P A B F : Asn} {φ : α → Prop} {R : β → Asn} (hP : P = A ⋆ F)
    (t : Triple f A (fun x h => φ x ∧ B h)) (t' : ∀ x, φ x → Triple (g x) (B ⋆ F) R) : Triple (f >>= g) P R := by
  refine Triple.step hP t fun x => ?_
  refine Triple.pre (P' := Mem.fact (φ x) ⋆ (B ⋆ F)) (Triple.fact fun hx => t' x hx) ?_
  rintro h ⟨h1, h2, d, e, ⟨a, b⟩, c⟩
  exact fact_star.mpr ⟨a, h1, h2, d, e, b, c⟩

/-! ### Counts -/

/-- What the loop of `ohcount_sourcefile_get_loc_list` adds for an entry. -/
def locOf (v : ParsedLanguage) : Loc := ⟨v.name, v.code.count, v.comments.count, v.blanksCount, 1⟩

theorem locsFrom_does (hal : Good al) (list p : Ptr) (ls : List String) : ∀ (xs2 xs1 : List (Ptr × Ptr)) (vs2 vs1 : List ParsedLanguage) (acc : List Loc),
    xs1.length = vs1.length →
    Does (locsFrom al list (headPtr xs2)) (Lst locEntry list acc ⋆ Spine p (xs1 ++ xs2) ls ⋆ Cells plEntry (xs1 ++ xs2) (vs1 ++ vs2)) ()
      (Lst locEntry list (vs2.foldl (fun l v => add locEntry l (locOf v)) acc) ⋆ Spine p (xs1 ++ xs2) ls ⋆ Cells plEntry (xs1 ++ xs2) (vs1 ++ vs2))
  | [], xs1, [], vs1, acc, hl => by
    rw [locsFrom, show headPtr [] = 0 from rfl, if_pos rfl]
    exact Does.pure _ _
  | [], xs1, v :: vs2, vs1, acc, hl => by
    refine Triple.know (φ := False) (star_ne' (star_ne' fun h c _ => ?_)) fun h => h.elim
    have := c.length
    simp at this
    omega
  | x :: xs2, xs1, [], vs1, acc, hl => by
    refine Triple.know (φ := False) (star_ne' (star_ne' fun h c _ => ?_)) fun h => h.elim
    have := c.length
    simp at this
    omega
  | x :: xs2, xs1, v :: vs2, vs1, acc, hl => by
    have ih := locsFrom_does hal list p ls xs2 (xs1 ++ [x]) vs2 (vs1 ++ [v]) (add locEntry acc (locOf v)) (by simp [hl])
    rw [List.append_assoc, List.append_assoc] at ih
    have hc : Cells plEntry (xs1 ++ x :: xs2) (vs1 ++ v :: vs2) = cell x.2 (.pl v) ⋆ Cells plEntry xs1 vs1 ⋆ Cells plEntry xs2 vs2 := by
      rw [Cells.append hl]
      show _ ⋆ (cell x.2 (.pl v) ⋆ _) = _
      ac_rfl
    refine Triple.know (star_ne' (star_ne fun h s => s.ne)) fun hx => ?_
    rw [locsFrom, show headPtr (x :: xs2) = x.1 from rfl, if_neg hx]
    refine Triple.stepThen (star_left_comm ..) (getNth_does p xs1 x xs2 ls) fun n hn => ?_
    rw [hn.1]
    refine Does.step (A := cell x.2 (.pl v)) (F := Lst locEntry list acc ⋆ Spine p (xs1 ++ x :: xs2) ls ⋆ Cells plEntry xs1 vs1 ⋆ Cells plEntry xs2 vs2)
      (by rw [hc]; ac_rfl) (getItem_does plEntry x.2 v) ?_
    refine Triple.step (A := emp) (emp_star _).symm (itemNew_does locEntry hal (locOf v)) fun q => ?_
    refine Does.step (A := Lst locEntry list acc ⋆ cell q (locEntry.cell (locOf v)))
      (F := cell x.2 (plEntry.cell v) ⋆ Spine p (xs1 ++ x :: xs2) ls ⋆ Cells plEntry xs1 vs1 ⋆ Cells plEntry xs2 vs2) (by ac_rfl) (listAdd_does hal list q acc (locOf v)) ?_
    refine Does.step (A := cell q (locEntry.cell (locOf v)))
      (F := Lst locEntry list (add locEntry acc (locOf v)) ⋆ cell x.2 (plEntry.cell v) ⋆ Spine p (xs1 ++ x :: xs2) ls ⋆ Cells plEntry xs1 vs1 ⋆ Cells plEntry xs2 vs2)
      (by ac_rfl) (free_does q _) ?_
    rw [emp_star]
    refine Triple.stepThen (A := Spine p (xs1 ++ x :: xs2) ls) (F := Lst locEntry list (add locEntry acc (locOf v)) ⋆ Cells plEntry (xs1 ++ x :: xs2) (vs1 ++ v :: vs2))
      (by rw [hc]; show _ ⋆ cell x.2 (.pl v) ⋆ _ = _; ac_rfl) (getNth_does p xs1 x xs2 ls) fun n hn => ?_
    rw [hn.2.1]
    refine Triple.pre ih fun h e => ?_
    rw [star_left_comm] at e
    exact e

theorem foldl_loc (pls : List ParsedLanguage) : pls.foldl (fun l v => add locEntry l (locOf v)) [] = locListOf pls := by
  unfold locListOf
  congr 1
  funext l v
  exact (add_loc l (locOf v)).symm

/-- The loop, for a whole list of parsed languages. -/
theorem locs_does (hal : Good al) (list p : Ptr) (pls : List ParsedLanguage) :
    Does (do let l ← getNode p; locsFrom al list l.head) (Lst locEntry list [] ⋆ Lst plEntry p pls) () (Lst locEntry list (locListOf pls) ⋆ Lst plEntry p pls) := by
  refine Triple.pre (P' := ex fun xs => ex fun ls => Lst locEntry list [] ⋆ Spine p xs ls ⋆ Cells plEntry xs pls) (Triple.ex fun xs => Triple.ex fun ls => ?_) ?_
  · refine Triple.stepThen (star_left_comm ..) (getHead_does p xs ls) fun n hn => ?_
    rw [hn]
    have t := locsFrom_does hal list p ls xs [] pls [] [] rfl
    rw [foldl_loc] at t
    refine Triple.post (Triple.pre t fun h e => ?_) fun x h e => ⟨e.1, ?_⟩
    · rw [star_left_comm] at e
      exact e
    · exact star_mono (fun _ e => e) Lst.unsplit h e.2
  · rintro h ⟨h1, h2, d, e, a, b⟩
    obtain ⟨xs, ls, b⟩ := Lst.split _ b
    exact ⟨xs, ls, h1, h2, d, e, a, b⟩

theorem computeLoc_cases {s s' : SourceFile} (h : s.computeLoc env disk = some s') : (s.locList ≠ none ∧ s' = s) ∨
    (s.locList = none ∧ ∃ s1 pls, s.doParse env disk = some s1 ∧ s1.parsed = some pls ∧ s1.locList = none ∧ s' = { s1 with locList := some (locListOf pls) }) := by
  unfold SourceFile.computeLoc at h
  cases hs : s.locList with
  | some l =>
    rw [hs] at h
    injection h with h
    exact .inl ⟨by simp, h.symm⟩
  | none =>
    rw [hs] at h
    obtain ⟨s1, h1, h⟩ := Option.bind_eq_some_iff.mp h
    obtain ⟨pls, hp⟩ := doParse_some h1
    injection h with h
    refine .inr ⟨rfl, s1, pls, h1, hp, by rw [(doParse_keeps h1).1, hs], ?_⟩
    rw [← h, hp]
    rfl

theorem fileLoc_does (hal : Good al) (ok : EnvOk env) (p : Ptr) (s s' : SourceFile) (hs : SizeOk s) (hp : s.computeLoc env disk = some s') (k : Slots) :
    Triple (fileLoc env al disk p) (FileAt p s k) (fun q => ex fun c => ex fun pp => FileAt p s' { k with cp := c, pp := pp, kp := q }) := by
  refine Triple.know FileAt.null fun hn => ?_
  unfold fileLoc
  refine (FileAt.get p s k).bind ?_
  refine Triple.bind (Q := fun _ => ex fun c => ex fun pp => ex fun q => FileAt p s' { k with cp := c, pp := pp, kp := q }) (onlyIf_does (fun hc => ?_) (fun hc h e => ?_)) fun _ => ?_
  · have hkn : s.locList = none := hn.2.2.2.2.mp hc
    rcases computeLoc_cases hp with h | ⟨_, s1, pls, h1, hpl, hl1, rfl⟩
    · exact absurd hkn h.1
    unfold fileLocNow
    refine Triple.step (emp_star _).symm (listNew_does (E := locEntry) hal) fun list => ?_
    refine Triple.step (star_comm ..) (fileParse_does hal ok p s s1 hs h1 k) fun _ => ?_
    rw [ex_star]
    refine Triple.ex fun c1 => ?_
    rw [ex_star]
    refine Triple.ex fun q1 => ?_
    refine Triple.step rfl (fileParsed_does hal ok p s1 s1 (hs.parse h1) (doParse_again hpl) _) fun q => ?_
    rw [ex_star]
    refine Triple.ex fun c => ?_
    dsimp only
    have e : FileAt p s1 { k with cp := c, pp := q } ⋆ Lst locEntry list [] =
        (Lst locEntry list [] ⋆ Lst plEntry q pls) ⋆ cell p (.file (fileRec s1 { k with cp := c, pp := q })) ⋆ RestP s1 { k with cp := c, pp := q } := by
      rw [FileAt.atP, hpl]
      show (Lst plEntry q pls ⋆ _) ⋆ _ = _
      ac_rfl
    rw [← bind_assoc]
    refine Does.step e (locs_does hal list q pls) ?_
    refine Does.step (star_left_comm ..) (getFile_does p _) ?_
    refine Does.last rfl (setFile_does p _ _) fun h e => ⟨c, q, list, ?_⟩
    show FileAt _ _ _ h
    rw [FileAt.atK]
    have e2 : cell p (.file { fileRec s1 { k with cp := c, pp := q } with locs := list }) ⋆ (Lst locEntry list (locListOf pls) ⋆ Lst plEntry q pls) ⋆ RestP s1 { k with cp := c, pp := q } =
        fact (k.kp = 0) ⋆ (Lst locEntry list (locListOf pls) ⋆ cell p (.file { fileRec s1 { k with cp := c, pp := q } with locs := list }) ⋆
          cell k.fp (.text s1.filepath) ⋆ optText k.dp s1.diskpath ⋆ optText c s1.contents ⋆ Lst plEntry q pls ⋆ optLics k.lp s1.licenses) := by
      unfold RestP
      rw [hl1]
      show _ ⋆ _ ⋆ _ ⋆ _ ⋆ _ ⋆ _ ⋆ fact (k.kp = 0) = _
      ac_rfl
    rw [e2] at e
    obtain ⟨_, e⟩ := fact_star.mp e
    unfold RestK
    show (Lst locEntry list (locListOf pls) ⋆ cell p (.file { fileRec s1 { k with cp := c, pp := q } with locs := list }) ⋆
          cell k.fp (.text s1.filepath) ⋆ optText k.dp s1.diskpath ⋆ optText c s1.contents ⋆ optLst plEntry q s1.parsed ⋆ optLics k.lp s1.licenses) h
    rw [hpl]
    exact e
  · have hkn : s.locList ≠ none := fun e => hc (hn.2.2.2.2.mpr e)
    rcases computeLoc_cases hp with h | h
    · rw [h.2]
      exact ⟨k.cp, k.pp, k.kp, e⟩
    · exact absurd h.1 hkn
  · refine Triple.ex fun c => Triple.ex fun pp => Triple.ex fun q => ?_
    exact (FileAt.get p _ _).bind (Triple.pure fun _ e => ⟨c, pp, e⟩)

/-! ### Licenses -/

theorem licenseBuffers_does (hal : Good al) (p : Ptr) (ls : List String) : ∀ (xs2 xs1 : List (Ptr × Ptr)) (vs2 vs1 : List ParsedLanguage),
    xs1.length = vs1.length →
    Does (licenseBuffers al (headPtr xs2)) (Spine p (xs1 ++ xs2) ls ⋆ Cells plEntry (xs1 ++ xs2) (vs1 ++ vs2)) vs2
      (Blocks vs2.length ⋆ Spine p (xs1 ++ xs2) ls ⋆ Cells plEntry (xs1 ++ xs2) (vs1 ++ vs2))
  | [], xs1, [], vs1, hl => by
    rw [licenseBuffers, show headPtr [] = 0 from rfl, if_pos rfl]
    refine Triple.pure fun h e => ⟨rfl, ?_⟩
    rw [← emp_star (Spine p (xs1 ++ []) ls ⋆ Cells plEntry (xs1 ++ []) (vs1 ++ []))] at e
    exact star_mono Blocks.emp (fun _ e => e) h e
  | [], xs1, v :: vs2, vs1, hl => by
    refine Triple.know (φ := False) (star_ne' fun h c _ => ?_) fun h => h.elim
    have := c.length
    simp at this
    omega
  | x :: xs2, xs1, [], vs1, hl => by
    refine Triple.know (φ := False) (star_ne' fun h c _ => ?_) fun h => h.elim
    have := c.length
    simp at this
    omega
  | x :: xs2, xs1, v :: vs2, vs1, hl => by
    have ih := licenseBuffers_does hal p ls xs2 (xs1 ++ [x]) vs2 (vs1 ++ [v]) (by simp [hl])
    rw [List.append_assoc, List.append_assoc] at ih
    have hc : Cells plEntry (xs1 ++ x :: xs2) (vs1 ++ v :: vs2) = cell x.2 (.pl v) ⋆ Cells plEntry xs1 vs1 ⋆ Cells plEntry xs2 vs2 := by
      rw [Cells.append hl]
      show _ ⋆ (cell x.2 (.pl v) ⋆ _) = _
      ac_rfl
    refine Triple.know (star_ne fun h s => s.ne) fun hx => ?_
    rw [licenseBuffers, show headPtr (x :: xs2) = x.1 from rfl, if_neg hx]
    refine Triple.stepThen rfl (getNth_does p xs1 x xs2 ls) fun n hn => ?_
    rw [hn.1]
    refine Does.step (A := cell x.2 (.pl v)) (F := Spine p (xs1 ++ x :: xs2) ls ⋆ Cells plEntry xs1 vs1 ⋆ Cells plEntry xs2 vs2)
      (by rw [hc]; ac_rfl) (getItem_does plEntry x.2 v) ?_
    refine Triple.step (A := emp) (emp_star _).symm (malloc_does hal _) fun q => ?_
    rw [hn.2.1]
    refine Does.step (A := Spine p (xs1 ++ x :: xs2) ls ⋆ Cells plEntry (xs1 ++ x :: xs2) (vs1 ++ v :: vs2)) (F := cell q (.text []))
      (by rw [hc]; show cell q (.text []) ⋆ cell x.2 (.pl v) ⋆ _ = _; ac_rfl) ih ?_
    refine Triple.pure fun h e => ⟨rfl, ?_⟩
    rw [star_comm, ← star_assoc] at e
    have := star_mono (P' := Blocks (1 + vs2.length)) (fun h e => Blocks.star h (star_mono Blocks.cell (fun _ e => e) h e)) (fun _ e => e) h e
    rw [Nat.add_comm] at this
    exact this

theorem licenseAdd_does (hal : Good al) (p : Ptr) (ls : List String) (l : String) : Does (licenseAdd al p l) (Lics p ls) () (Lics p (ls ++ [l])) := by
  refine Triple.ex fun xs => ?_
  refine Triple.fact fun hx => ?_
  unfold licenseAdd
  refine (getHead_does p xs ls).then fun n hn => ?_
  rw [hn]
  have mk : Triple (pure 0 : M Ptr) emp (fun q => fact (q = 0)) := Triple.pure fun h e => ⟨e, rfl⟩
  cases xs with
  | nil =>
    refine Triple.know (φ := ls = []) (fun h s _ => List.eq_nil_of_length_eq_zero s.length) fun hls => ?_
    subst hls
    rw [if_pos (show headPtr [] = 0 from rfl)]
    refine (ignore_does (first_does mk p l)).post fun x h e => ⟨rfl, ?_⟩
    obtain ⟨q, e⟩ := e
    rw [star_comm] at e
    obtain ⟨rfl, e⟩ := fact_star.mp e
    exact ⟨[(p, 0)], fact_star.mpr ⟨by simp, e⟩⟩
  | cons x xs =>
    refine Triple.know (fun h s h0 => Spine.ne (xs1 := []) (x := x) (xs2 := xs) s h0) fun hx0 => ?_
    rw [if_neg (show headPtr (x :: xs) ≠ 0 from hx0)]
    refine (ignore_does (append_does hal mk p (x :: xs) (by simp) ls l)).post fun u h e => ⟨rfl, ?_⟩
    obtain ⟨q, b, e⟩ := e
    rw [star_comm] at e
    obtain ⟨rfl, e⟩ := fact_star.mp e
    refine ⟨x :: xs ++ [(b, 0)], fact_star.mpr ⟨fun y hy => ?_, e⟩⟩
    rcases List.mem_append.mp hy with hy | hy
    · exact hx y hy
    · simp at hy
      rw [hy]

theorem licensesAdd_does (hal : Good al) (p : Ptr) : ∀ (new ls : List String), Does (licensesAdd al p new) (Lics p ls) () (Lics p (ls ++ new))
  | [], ls => by
    rw [List.append_nil]
    exact Does.pure _ _
  | l :: new, ls => by
    have := licensesAdd_does hal p new (ls ++ [l])
    rw [List.append_assoc] at this
    exact (licenseAdd_does hal p ls l).bind this

theorem buffers_does (hal : Good al) (p : Ptr) (pls : List ParsedLanguage) :
    Does (do let l ← getNode p; licenseBuffers al l.head) (Lst plEntry p pls) pls (Blocks pls.length ⋆ Lst plEntry p pls) := by
  refine Triple.pre (Triple.ex fun xs => Triple.ex fun ls => ?_) Lst.split
  refine Triple.stepThen rfl (getHead_does p xs ls) fun n hn => ?_
  rw [hn]
  refine Triple.post (licenseBuffers_does hal p ls xs [] pls [] rfl) fun x h e => ⟨e.1, ?_⟩
  exact star_mono (fun _ e => e) Lst.unsplit h e.2

theorem computeLicenses_cases {s s' : SourceFile} (h : s.computeLicenses env disk = some s') : (s.licenses ≠ none ∧ s' = s) ∨
    (s.licenses = none ∧ ∃ s1 pls, s.doParse env disk = some s1 ∧ s1.parsed = some pls ∧ s1.licenses = none ∧ s' = { s1 with licenses := some (env.detectLicenses pls) }) := by
  unfold SourceFile.computeLicenses at h
  cases hs : s.licenses with
  | some l =>
    rw [hs] at h
    injection h with h
    exact .inl ⟨by simp, h.symm⟩
  | none =>
    rw [hs] at h
    obtain ⟨s1, h1, h⟩ := Option.bind_eq_some_iff.mp h
    obtain ⟨pls, hp⟩ := doParse_some h1
    injection h with h
    refine .inr ⟨rfl, s1, pls, h1, hp, by rw [(doParse_keeps h1).2, hs], ?_⟩
    rw [← h, hp]
    rfl

/-- The buffers that stay behind when the licenses of `s`, which becomes `s'`, are asked for. -/
def licenseLoss (s s' : SourceFile) : Nat := if s.licenses.isSome then 0 else (s'.parsed.getD []).length

theorem detectLicense_does (hal : Good al) (ok : EnvOk env) (p : Ptr) (s s1 : SourceFile) (pls : List ParsedLanguage) (hs : SizeOk s) (h1 : s.doParse env disk = some s1)
    (hpl : s1.parsed = some pls) (k : Slots) : Triple (detectLicense env al disk p) (FileAt p s k)
      (fun list => ex fun c => ex fun q => Blocks pls.length ⋆ Lics list (env.detectLicenses pls) ⋆ FileAt p s1 { k with cp := c, pp := q }) := by
  unfold detectLicense
  refine Triple.step (emp_star _).symm (listNew_spine hal) fun list => ?_
  refine Triple.step (star_comm ..) (fileParse_does hal ok p s s1 hs h1 k) fun _ => ?_
  rw [ex_star]
  refine Triple.ex fun c1 => ?_
  rw [ex_star]
  refine Triple.ex fun q1 => ?_
  refine Triple.step rfl (fileParsed_does hal ok p s1 s1 (hs.parse h1) (doParse_again hpl) _) fun q => ?_
  rw [ex_star]
  refine Triple.ex fun c => ?_
  dsimp only
  have e : FileAt p s1 { k with cp := c, pp := q } ⋆ Spine list [] [] =
      Lst plEntry q pls ⋆ Spine list [] [] ⋆ cell p (.file (fileRec s1 { k with cp := c, pp := q })) ⋆ RestP s1 { k with cp := c, pp := q } := by
    rw [FileAt.atP, hpl]
    show (Lst plEntry q pls ⋆ _) ⋆ _ = _
    ac_rfl
  have eb : (do let l ← getNode q; let vs ← licenseBuffers al l.head; licensesAdd al list (env.detectLicenses vs); pure list : M Ptr) =
      ((do let l ← getNode q; licenseBuffers al l.head) >>= fun vs => do licensesAdd al list (env.detectLicenses vs); pure list) := (bind_assoc ..).symm
  rw [eb]
  refine Does.step e (buffers_does hal q pls) ?_
  refine Does.step (A := Lics list []) (F := Blocks pls.length ⋆ Lst plEntry q pls ⋆ cell p (.file (fileRec s1 { k with cp := c, pp := q })) ⋆ RestP s1 { k with cp := c, pp := q }) ?_
    (licensesAdd_does hal list (env.detectLicenses pls) []) ?_
  · have : Lics list [] = Spine list [] [] := by
      funext h
      refine propext ⟨?_, fun s => ⟨[], fact_star.mpr ⟨by simp, s⟩⟩⟩
      rintro ⟨xs, l⟩
      obtain ⟨_, l⟩ := fact_star.mp l
      have : xs = [] := List.eq_nil_of_length_eq_zero l.length.symm
      exact this ▸ l
    rw [this]
    ac_rfl
  · refine Triple.pure fun h e => ⟨c, q, ?_⟩
    show (Blocks pls.length ⋆ Lics list (env.detectLicenses pls) ⋆ FileAt _ _ _) h
    rw [FileAt.atP, hpl]
    rw [star_left_comm] at e
    exact e

theorem fileLicenses_does (hal : Good al) (ok : EnvOk env) (p : Ptr) (s s' : SourceFile) (hs : SizeOk s) (hp : s.computeLicenses env disk = some s') (k : Slots) :
    Triple (fileLicenses env al disk p) (FileAt p s k)
      (fun q => ex fun c => ex fun pp => Blocks (licenseLoss s s') ⋆ FileAt p s' { k with cp := c, pp := pp, lp := q }) := by
  refine Triple.know FileAt.null fun hn => ?_
  unfold fileLicenses
  refine (FileAt.get p s k).bind ?_
  refine Triple.bind (Q := fun _ => ex fun c => ex fun pp => ex fun q => Blocks (licenseLoss s s') ⋆ FileAt p s' { k with cp := c, pp := pp, lp := q })
    (onlyIf_does (fun hc => ?_) (fun hc h e => ?_)) fun _ => ?_
  · have hkn : s.licenses = none := hn.2.2.2.1.mp hc
    rcases computeLicenses_cases hp with h | ⟨_, s1, pls, h1, hpl, hl1, rfl⟩
    · exact absurd hkn h.1
    have hloss : licenseLoss s { s1 with licenses := some (env.detectLicenses pls) } = pls.length := by
      unfold licenseLoss
      rw [hkn]
      show (s1.parsed.getD []).length = _
      rw [hpl]
      rfl
    rw [hloss]
    unfold fileLicensesNow
    refine Triple.bind (detectLicense_does hal ok p s s1 pls hs h1 hpl k) fun list => ?_
    refine Triple.ex fun c => Triple.ex fun q => ?_
    have e : Blocks pls.length ⋆ Lics list (env.detectLicenses pls) ⋆ FileAt p s1 { k with cp := c, pp := q } = fact (k.lp = 0) ⋆ (cell p (.file (fileRec s1 { k with cp := c, pp := q })) ⋆
        Blocks pls.length ⋆ Lics list (env.detectLicenses pls) ⋆ RestL s1 { k with cp := c, pp := q }) := by
      rw [FileAt.atL, hl1]
      show _ ⋆ _ ⋆ fact (k.lp = 0) ⋆ _ = _
      ac_rfl
    rw [e]
    refine Triple.fact fun _ => ?_
    refine Does.step rfl (getFile_does p _) ?_
    refine Does.last rfl (setFile_does p _ _) fun h e => ⟨c, q, list, ?_⟩
    show (Blocks pls.length ⋆ FileAt _ _ _) h
    rw [FileAt.atL]
    have e2 : cell p (.file { fileRec s1 { k with cp := c, pp := q } with licenses := list }) ⋆ Blocks pls.length ⋆ Lics list (env.detectLicenses pls) ⋆ RestL s1 { k with cp := c, pp := q } =
      Blocks pls.length ⋆ Lics list (env.detectLicenses pls) ⋆ cell p (.file { fileRec s1 { k with cp := c, pp := q } with licenses := list }) ⋆ RestL s1 { k with cp := c, pp := q } := by ac_rfl
    rw [e2] at e
    exact e
  · have hkn : s.licenses ≠ none := fun e => hc (hn.2.2.2.1.mpr e)
    rcases computeLicenses_cases hp with h' | h'
    · rw [h'.2]
      refine ⟨k.cp, k.pp, k.lp, ?_⟩
      have : licenseLoss s s = 0 := by
        unfold licenseLoss
        rw [if_pos]
        cases hl : s.licenses with
        | none => exact absurd hl hkn
        | some l => rfl
      rw [this]
      rw [← emp_star (FileAt p s k)] at e
      exact star_mono Blocks.emp (fun _ e => e) h e
    · exact absurd h'.1 hkn
  · refine Triple.ex fun c => Triple.ex fun pp => Triple.ex fun q => ?_
    refine Does.step (star_comm ..) (FileAt.get p _ _) (Triple.pure fun h e => ⟨c, pp, ?_⟩)
    rw [star_comm] at e
    exact e

/-! ### Freeing -/

theorem freeNodes_does : ∀ xs : List (Ptr × Ptr), (∀ x ∈ xs, x.2 = 0) → Does (freeFrom (headPtr xs)) (Nodes xs) () emp
  | [], _ => by
    rw [freeFrom, show headPtr [] = 0 from rfl, if_pos rfl]
    exact Does.pure _ _
  | x :: xs, hx => by
    refine Triple.know (φ := x.1 ≠ 0) (star_ne fun h e h0 => ?_) fun h0 => ?_
    · obtain ⟨n, e⟩ := e
      exact cell_ne (fact_star.mp e).2 h0
    unfold Nodes
    rw [ex_star]
    refine Triple.ex fun n => ?_
    rw [star_assoc]
    refine Triple.fact fun hn => ?_
    rw [freeFrom, show headPtr (x :: xs) = x.1 from rfl, if_neg h0]
    refine Does.step rfl (getNode_does x.1 n) ?_
    rw [hn.1, hx x (by simp)]
    refine Does.step (emp_star _).symm free_null_does ?_
    rw [emp_star]
    refine Does.step rfl (free_does x.1 _) ?_
    rw [emp_star, hn.2]
    exact freeNodes_does xs fun y hy => hx y (by simp [hy])

theorem licensesFree_does (p : Ptr) (ls : List String) : Does (listFree p) (Lics p ls) () emp := by
  refine Triple.ex fun xs => ?_
  refine Triple.fact fun hx => ?_
  unfold listFree
  refine (getHead_does p xs ls).then fun n hn => ?_
  rw [hn]
  cases xs with
  | nil =>
    rw [if_neg (fun h => h (show headPtr [] = 0 from rfl))]
    refine Triple.pre (P' := ex fun n => cell p (.node n)) (Triple.ex fun n => free_does p _) fun h s => ?_
    obtain ⟨n, e, _⟩ := s.empty
    exact ⟨n, e⟩
  | cons x xs =>
    refine Triple.know (fun h s h0 => Spine.ne (xs1 := []) (x := x) (xs2 := xs) s h0) fun hx0 => ?_
    rw [if_pos (show headPtr (x :: xs) ≠ 0 from hx0)]
    exact Triple.pre (freeNodes_does _ hx) (Spine.toNodes (by simp))

theorem freeLst_does {V : Type} {E : Entry V} (p : Ptr) (o : Option (List V)) : Does (onlyIf (p ≠ 0) (listFree p)) (optLst E p o) () emp := by
  cases o with
  | none =>
    refine onlyIf_does (fun h => ?_) (fun _ _ h => ⟨rfl, h.1⟩)
    exact Triple.know (φ := False) (fun _ e _ => h e.2) fun h => h.elim
  | some b =>
    refine Triple.know (fun _ e h0 => Lst.ne e h0) fun hp => ?_
    exact onlyIf_does (fun _ => listFree_does p _) (fun h => absurd hp h)

theorem freeLics_does (p : Ptr) (o : Option (List String)) : Does (onlyIf (p ≠ 0) (listFree p)) (optLics p o) () emp := by
  cases o with
  | none =>
    refine onlyIf_does (fun h => ?_) (fun _ _ h => ⟨rfl, h.1⟩)
    exact Triple.know (φ := False) (fun _ e _ => h e.2) fun h => h.elim
  | some b =>
    refine Triple.know (fun _ e h0 => Lics.ne e h0) fun hp => ?_
    exact onlyIf_does (fun _ => licensesFree_does p _) (fun h => absurd hp h)

theorem fileFree_does (p : Ptr) (s : SourceFile) : Does (fileFree p) (File p s) () emp := by
  refine Triple.ex fun k => ?_
  unfold fileFree
  refine (FileAt.get p s k).bind ?_
  unfold FileAt Parts
  refine Does.step (star_left_comm ..) (free_does k.fp _) ?_
  rw [emp_star]
  refine Does.step (star_left_comm ..) (freeText_does k.dp _) ?_
  rw [emp_star]
  refine Does.step (star_left_comm ..) (freeText_does k.cp _) ?_
  rw [emp_star]
  refine Does.step (star_left_comm ..) (freeLst_does k.pp _) ?_
  rw [emp_star]
  refine Does.step (star_left_comm ..) (freeLics_does k.lp _) ?_
  rw [emp_star]
  refine Does.step (star_comm ..) (freeLst_does k.kp _) ?_
  rw [emp_star]
  exact free_does p _

/-! ### Lists of source files -/

/-- The source files of the nodes of a list. -/
def FilesAt : List (Ptr × Ptr) → List SourceFile → Asn
  | [], [] => emp
  | x :: xs, s :: ss => File x.2 s ⋆ FilesAt xs ss
  | _, _ => fun _ => False

/-- The list of source files at `p`. -/
def Files (p : Ptr) (ss : List SourceFile) : Asn := ex fun xs => ex fun ls => Spine p xs ls ⋆ FilesAt xs ss

theorem FilesAt.length : ∀ {xs : List (Ptr × Ptr)} {vs : List SourceFile} {h : Mem}, FilesAt xs vs h → xs.length = vs.length
  | [], [], _, _ => rfl
  | _ :: _, _ :: _, _, ⟨_, _, _, _, _, c⟩ => congrArg (· + 1) c.length
  | [], _ :: _, _, h => h.elim
  | _ :: _, [], _, h => h.elim

theorem FilesAt.append : ∀ {xs ys : List (Ptr × Ptr)} {vs ws : List SourceFile}, xs.length = vs.length → FilesAt (xs ++ ys) (vs ++ ws) = FilesAt xs vs ⋆ FilesAt ys ws
  | [], _, [], _, _ => (emp_star _).symm
  | _ :: xs, _, _ :: vs, _, h => by
    show _ ⋆ FilesAt (xs ++ _) (vs ++ _) = (_ ⋆ _) ⋆ _
    rw [FilesAt.append (by simpa using h), star_assoc]
  | [], _, _ :: _, _, h => by simp at h
  | _ :: _, _, [], _, h => by simp at h

theorem filesNew_does (hal : Good al) : Triple (listNew al) emp (fun p => Files p []) :=
  (listNew_spine hal).post fun p h e => ⟨[], [], by show (_ ⋆ FilesAt [] []) h; rw [show FilesAt [] [] = emp from rfl, star_emp]; exact e⟩

theorem filesAdd_does (hal : Good al) (before : Byte) (p : Ptr) (ss : List SourceFile) (path : Bytes) :
    Does (filesAdd al before p path) (Files p ss) () (Files p (listAddFile before ss path)) := by
  refine Triple.ex fun xs => Triple.ex fun ls => ?_
  refine Triple.know (φ := xs.length = ss.length) (star_ne' fun h c _ => c.length) fun hlen => ?_
  unfold filesAdd listAddFile
  refine Triple.stepThen rfl (getHead_does p xs ls) fun n hn => ?_
  rw [hn]
  have mk := fileNew_does hal before path
  have one : ∀ x : Ptr × Ptr, FilesAt [x] [SourceFile.new before path] = File x.2 (SourceFile.new before path) := fun x => by
    show _ ⋆ emp = _
    exact star_emp _
  cases xs with
  | nil =>
    refine Triple.know (φ := ls = []) (star_ne fun h s _ => List.eq_nil_of_length_eq_zero s.length) fun hls => ?_
    subst hls
    rw [if_pos (show headPtr [] = 0 from rfl)]
    refine Triple.last rfl (ignore_does (first_does mk p "")) fun x h e => ⟨rfl, ?_⟩
    have : ss = [] := List.eq_nil_of_length_eq_zero hlen.symm
    subst this
    rw [ex_star] at e
    obtain ⟨q, e⟩ := e
    rw [show FilesAt [] [] = emp from rfl, star_emp] at e
    refine ⟨[(p, q)], [""], ?_⟩
    show (Spine p [(p, q)] [""] ⋆ FilesAt _ ([] ++ [SourceFile.new before path])) h
    rw [List.nil_append, one]
    exact e
  | cons x xs =>
    refine Triple.know (star_ne fun h s h0 => Spine.ne (xs1 := []) (x := x) (xs2 := xs) s h0) fun hx0 => ?_
    rw [if_neg (show headPtr (x :: xs) ≠ 0 from hx0)]
    refine Triple.last rfl (ignore_does (append_does hal mk p (x :: xs) (by simp) ls "")) fun u h e => ⟨rfl, ?_⟩
    rw [ex_star] at e
    obtain ⟨q, e⟩ := e
    rw [ex_star] at e
    obtain ⟨b, e⟩ := e
    refine ⟨x :: xs ++ [(b, q)], ls ++ [""], ?_⟩
    show (Spine p _ _ ⋆ FilesAt _ (ss ++ [SourceFile.new before path])) h
    rw [FilesAt.append hlen, one]
    rw [star_assoc, star_comm (File _ _)] at e
    exact e

theorem filesAddAll_does (hal : Good al) (before : Byte) (p : Ptr) : ∀ (paths : List Bytes) (ss : List SourceFile),
    Does (filesAddAll al before p paths) (Files p ss) () (Files p (paths.foldl (listAddFile before) ss))
  | [], _ => Does.pure _ _
  | path :: paths, ss => (filesAdd_does hal before p ss path).bind (filesAddAll_does hal before p paths _)

/-- A file of a list, and the rest of the list. -/
def Without (p : Ptr) (ss1 ss2 : List SourceFile) (q : Ptr) : Asn :=
  ex fun xs1 => ex fun b => ex fun xs2 => ex fun ls => fact (xs1.length = ss1.length) ⋆ Spine p (xs1 ++ (b, q) :: xs2) ls ⋆ FilesAt xs1 ss1 ⋆ FilesAt xs2 ss2

theorem Without.back {p : Ptr} {ss1 ss2 : List SourceFile} {s : SourceFile} {q : Ptr} : ∀ h, (File q s ⋆ Without p ss1 ss2 q) h → Files p (ss1 ++ s :: ss2) h := by
  rintro h ⟨h1, h2, d, e, f, xs1, b, xs2, ls, w⟩
  obtain ⟨hl, w⟩ := fact_star.mp w
  refine ⟨xs1 ++ (b, q) :: xs2, ls, ?_⟩
  show (_ ⋆ FilesAt _ _) h
  rw [FilesAt.append hl]
  show (Spine p (xs1 ++ (b, q) :: xs2) ls ⋆ FilesAt xs1 ss1 ⋆ File q s ⋆ FilesAt xs2 ss2) h
  have e' : Spine p (xs1 ++ (b, q) :: xs2) ls ⋆ FilesAt xs1 ss1 ⋆ File q s ⋆ FilesAt xs2 ss2 =
    File q s ⋆ Spine p (xs1 ++ (b, q) :: xs2) ls ⋆ FilesAt xs1 ss1 ⋆ FilesAt xs2 ss2 := by ac_rfl
  rw [e']
  exact ⟨h1, h2, d, e, f, w⟩

theorem nthFrom_does (p : Ptr) (ls : List String) (x : Ptr × Ptr) (xs3 : List (Ptr × Ptr)) : ∀ (xs2 xs1 : List (Ptr × Ptr)),
    Does (nthFrom (headPtr (xs2 ++ x :: xs3)) xs2.length) (Spine p (xs1 ++ (xs2 ++ x :: xs3)) ls) x.2 (Spine p (xs1 ++ (xs2 ++ x :: xs3)) ls)
  | [], xs1 => by
    show Does (nthFrom x.1 0) _ _ _
    unfold nthFrom
    exact (getNth_does p xs1 x xs3 ls).then fun n hn => Triple.pure fun h e => ⟨hn.1, e⟩
  | y :: xs2, xs1 => by
    show Does (nthFrom y.1 (xs2.length + 1)) _ _ _
    unfold nthFrom
    have ih := nthFrom_does p ls x xs3 xs2 (xs1 ++ [y])
    rw [List.append_assoc] at ih
    refine (getNth_does p xs1 y (xs2 ++ x :: xs3) ls).then fun n hn => ?_
    rw [hn.2.1]
    exact ih

theorem filesNth_does (p : Ptr) (ss1 : List SourceFile) (s : SourceFile) (ss2 : List SourceFile) :
    Triple (filesNth p ss1.length) (Files p (ss1 ++ s :: ss2)) (fun q => File q s ⋆ Without p ss1 ss2 q) := by
  refine Triple.ex fun xs => Triple.ex fun ls => ?_
  refine Triple.know (φ := xs.length = (ss1 ++ s :: ss2).length) (star_ne' fun h c _ => c.length) fun hlen => ?_
  obtain ⟨xs1, x, xs2, rfl, hl⟩ : ∃ xs1 x xs2, xs = xs1 ++ x :: xs2 ∧ xs1.length = ss1.length := by
    have h2 : ss1.length < xs.length := by simp at hlen; omega
    exact ⟨xs.take ss1.length, xs[ss1.length], xs.drop (ss1.length + 1), by simp, by simp; omega⟩
  unfold filesNth
  refine Triple.stepThen rfl (getHead_does p _ ls) fun n hn => ?_
  rw [hn, ← hl]
  refine Does.last rfl (nthFrom_does p ls x xs2 xs1 []) fun h e => ?_
  have e' : Spine p ([] ++ (xs1 ++ x :: xs2)) ls ⋆ FilesAt (xs1 ++ x :: xs2) (ss1 ++ s :: ss2) =
      File x.2 s ⋆ Spine p (xs1 ++ x :: xs2) ls ⋆ FilesAt xs1 ss1 ⋆ FilesAt xs2 ss2 := by
    rw [FilesAt.append hl]
    show Spine p (xs1 ++ x :: xs2) ls ⋆ FilesAt xs1 ss1 ⋆ File x.2 s ⋆ FilesAt xs2 ss2 = _
    ac_rfl
  rw [e'] at e
  obtain ⟨h1, h2, d, e, f, w⟩ := e
  exact ⟨h1, h2, d, e, f, xs1, x.1, xs2, ls, fact_star.mpr ⟨hl, w⟩⟩

theorem filesFreeFrom_does : ∀ (xs : List (Ptr × Ptr)) (ss : List SourceFile), Does (filesFreeFrom (headPtr xs)) (Nodes xs ⋆ FilesAt xs ss) () emp
  | [], [] => by
    rw [filesFreeFrom, show headPtr [] = 0 from rfl, if_pos rfl]
    show Does _ (emp ⋆ emp) _ _
    rw [emp_star]
    exact Does.pure _ _
  | [], _ :: _ => Triple.know (φ := False) (star_ne' fun h c _ => nomatch c.length) fun h => h.elim
  | _ :: _, [] => Triple.know (φ := False) (star_ne' fun h c _ => nomatch c.length) fun h => h.elim
  | x :: xs, s :: ss => by
    refine Triple.know (φ := x.1 ≠ 0) (star_ne (star_ne fun h e h0 => ?_)) fun h0 => ?_
    · obtain ⟨n, e⟩ := e
      exact cell_ne (fact_star.mp e).2 h0
    unfold Nodes FilesAt
    rw [ex_star, ex_star]
    refine Triple.ex fun n => ?_
    rw [star_assoc, star_assoc]
    refine Triple.fact fun hn => ?_
    rw [filesFreeFrom, show headPtr (x :: xs) = x.1 from rfl, if_neg h0]
    refine Does.step rfl (getNode_does x.1 n) ?_
    rw [hn.1]
    refine Does.step (A := File x.2 s) (F := cell x.1 (.node n) ⋆ Nodes xs ⋆ FilesAt xs ss) (by ac_rfl) (fileFree_does x.2 s) ?_
    rw [emp_star]
    refine Does.step rfl (free_does x.1 _) ?_
    rw [emp_star, hn.2]
    exact filesFreeFrom_does xs ss

theorem filesFree_does (p : Ptr) (ss : List SourceFile) : Does (filesFree p) (Files p ss) () emp := by
  refine Triple.ex fun xs => Triple.ex fun ls => ?_
  unfold filesFree
  refine Triple.stepThen rfl (getHead_does p xs ls) fun n hn => ?_
  rw [hn]
  cases xs with
  | nil =>
    rw [if_neg (fun h => h (show headPtr [] = 0 from rfl))]
    refine Triple.know (φ := ss = []) (star_ne' fun h c _ => List.eq_nil_of_length_eq_zero c.length.symm) fun hss => ?_
    subst hss
    rw [show FilesAt [] [] = emp from rfl, star_emp]
    refine Triple.pre (P' := ex fun n => cell p (.node n)) (Triple.ex fun n => free_does p _) fun h s => ?_
    obtain ⟨n, e, _⟩ := s.empty
    exact ⟨n, e⟩
  | cons x xs =>
    refine Triple.know (star_ne fun h s h0 => Spine.ne (xs1 := []) (x := x) (xs2 := xs) s h0) fun hx0 => ?_
    rw [if_pos (show headPtr (x :: xs) ≠ 0 from hx0)]
    exact Triple.pre (filesFreeFrom_does _ ss) (star_mono (Spine.toNodes (by simp)) fun _ e => e)

/-! ### Analysis of a list -/

theorem SizeOk.loc {s s' : SourceFile} (hs : SizeOk s) (h : s.computeLoc env disk = some s') : SizeOk s' := by
  rcases computeLoc_cases h with ⟨_, rfl⟩ | ⟨_, s1, pls, h1, _, _, rfl⟩
  · exact hs
  · exact fun c e => hs.parse h1 c e

theorem SizeOk.licenses {s s' : SourceFile} (hs : SizeOk s) (h : s.computeLicenses env disk = some s') : SizeOk s' := by
  rcases computeLicenses_cases h with ⟨_, rfl⟩ | ⟨_, s1, pls, h1, _, _, rfl⟩
  · exact hs
  · exact fun c e => hs.parse h1 c e

theorem computeLoc_some {s s' : SourceFile} (h : s.computeLoc env disk = some s') : ∃ l, s'.locList = some l := by
  rcases computeLoc_cases h with ⟨h1, rfl⟩ | ⟨_, s1, pls, h1, _, _, rfl⟩
  · cases hl : s'.locList with
    | none => exact absurd hl h1
    | some l => exact ⟨l, rfl⟩
  · exact ⟨_, rfl⟩

/-- The files of a list after their counts were asked for. -/
def countAll (env : Env) (disk : Disk) : List SourceFile → Option (List SourceFile)
  | [] => some []
  | s :: ss => (s.computeLoc env disk).bind fun s' => (countAll env disk ss).bind fun ss' => some (s' :: ss')

theorem analyze_one (hal : Good al) (ok : EnvOk env) (locs q : Ptr) (acc : LocList) (s s' : SourceFile) (hs : SizeOk s) (h : s.computeLoc env disk = some s') :
    Does (do let l ← fileLoc env al disk q; listAddList locEntry al locs l) (Lst locEntry locs acc ⋆ File q s) ()
      (Lst locEntry locs (acc.addLocList (s'.locList.getD [])) ⋆ File q s') := by
  refine Triple.pre (P' := ex fun k => FileAt q s k ⋆ Lst locEntry locs acc) (Triple.ex fun k => ?_) fun h e => by
    rw [star_comm] at e
    rw [← ex_star]
    exact e
  obtain ⟨l, hl⟩ := computeLoc_some h
  refine Triple.step rfl (fileLoc_does hal ok q s s' hs h k) fun kp => ?_
  rw [ex_star]
  refine Triple.ex fun c => ?_
  rw [ex_star]
  refine Triple.ex fun pp => ?_
  rw [FileAt.atK, hl]
  refine Does.last (A := Lst locEntry locs acc ⋆ Lst locEntry kp l) (F := cell q (.file (fileRec s' { k with cp := c, pp := pp, kp := kp })) ⋆ RestK s' { k with cp := c, pp := pp, kp := kp })
    ?_ (listAddList_does hal locs kp acc l) fun h e => ⟨rfl, ?_⟩
  · show (Lst locEntry kp l ⋆ _) ⋆ _ = _
    ac_rfl
  · rw [show LocList.addLocList acc ((some l).getD []) = l.foldl (add locEntry) acc by
      show l.foldl LocList.addLoc acc = _
      rw [show LocList.addLoc = add locEntry from funext fun a => funext fun b => add_loc a b]]
    rw [star_assoc] at e
    obtain ⟨h1, h2, d, e, a, b⟩ := e
    refine ⟨h1, h2, d, e, a, { k with cp := c, pp := pp, kp := kp }, ?_⟩
    show FileAt _ _ _ h2
    rw [FileAt.atK, hl]
    exact b

theorem analyzeFrom_does (hal : Good al) (ok : EnvOk env) (locs p : Ptr) (ls : List String) : ∀ (xs2 xs1 : List (Ptr × Ptr)) (ss2 ss1 : List SourceFile) (ss2' : List SourceFile)
    (acc out : LocList), xs1.length = ss1.length → (∀ s ∈ ss2, SizeOk s) → countAll env disk ss2 = some ss2' → analyzeLoop env disk acc ss2 = some out →
    Does (analyzeFrom env al disk locs (headPtr xs2)) (Lst locEntry locs acc ⋆ Spine p (xs1 ++ xs2) ls ⋆ FilesAt (xs1 ++ xs2) (ss1 ++ ss2)) ()
      (Lst locEntry locs out ⋆ Spine p (xs1 ++ xs2) ls ⋆ FilesAt (xs1 ++ xs2) (ss1 ++ ss2'))
  | [], xs1, [], ss1, ss2', acc, out, hl, hs, h, h' => by
    rw [analyzeFrom, show headPtr [] = 0 from rfl, if_pos rfl]
    injection h with h
    injection h' with h'
    rw [← h, ← h']
    exact Does.pure _ _
  | [], xs1, v :: vs2, vs1, _, _, _, hl, _, _, _ => by
    refine Triple.know (φ := False) (star_ne' (star_ne' fun h c _ => ?_)) fun h => h.elim
    have := c.length
    simp at this
    omega
  | x :: xs2, xs1, [], vs1, _, _, _, hl, _, _, _ => by
    refine Triple.know (φ := False) (star_ne' (star_ne' fun h c _ => ?_)) fun h => h.elim
    have := c.length
    simp at this
    omega
  | x :: xs2, xs1, s :: ss2, ss1, ss2', acc, out, hl, hs, h, h' => by
    unfold countAll at h
    unfold analyzeLoop at h'
    obtain ⟨s', h1, h⟩ := Option.bind_eq_some_iff.mp h
    obtain ⟨ss', h2, h⟩ := Option.bind_eq_some_iff.mp h
    injection h with h
    subst h
    rw [h1] at h'
    have ih := analyzeFrom_does hal ok locs p ls xs2 (xs1 ++ [x]) ss2 (ss1 ++ [s']) ss' (acc.addLocList (s'.locList.getD [])) out (by simp [hl])
      (fun t ht => hs t (by simp [ht])) h2 h'
    rw [List.append_assoc, List.append_assoc, List.append_assoc] at ih
    have hc : ∀ s, FilesAt (xs1 ++ x :: xs2) (ss1 ++ s :: ss2) = File x.2 s ⋆ FilesAt xs1 ss1 ⋆ FilesAt xs2 ss2 := fun s => by
      rw [FilesAt.append hl]
      show _ ⋆ (File x.2 s ⋆ _) = _
      ac_rfl
    refine Triple.know (star_ne' (star_ne fun h s => s.ne)) fun hx => ?_
    rw [analyzeFrom, show headPtr (x :: xs2) = x.1 from rfl, if_neg hx]
    refine Triple.stepThen (star_left_comm ..) (getNth_does p xs1 x xs2 ls) fun n hn => ?_
    rw [hn.1, ← bind_assoc]
    refine Does.step (A := Lst locEntry locs acc ⋆ File x.2 s) (F := Spine p (xs1 ++ x :: xs2) ls ⋆ FilesAt xs1 ss1 ⋆ FilesAt xs2 ss2)
      (by rw [hc]; ac_rfl) (analyze_one hal ok locs x.2 acc s s' (hs s (by simp)) h1) ?_
    refine Triple.stepThen (A := Spine p (xs1 ++ x :: xs2) ls) (F := Lst locEntry locs (acc.addLocList (s'.locList.getD [])) ⋆ FilesAt (xs1 ++ x :: xs2) (ss1 ++ s' :: ss2))
      (by rw [hc]; ac_rfl) (getNth_does p xs1 x xs2 ls) fun n hn => ?_
    rw [hn.2.1]
    refine Triple.pre ih fun h e => ?_
    rw [star_left_comm] at e
    exact e

theorem analyze_count : ∀ {acc out : LocList} {ss : List SourceFile}, analyzeLoop env disk acc ss = some out → ∃ ss', countAll env disk ss = some ss'
  | _, _, [], _ => ⟨[], rfl⟩
  | acc, out, s :: ss, h => by
    unfold analyzeLoop at h
    obtain ⟨s', h1, h⟩ := Option.bind_eq_some_iff.mp h
    obtain ⟨ss', h2⟩ := analyze_count h
    exact ⟨s' :: ss', by unfold countAll; rw [h1, h2]; rfl⟩

theorem filesAnalyze_does (hal : Good al) (ok : EnvOk env) (p : Ptr) (ss ss' : List SourceFile) (out : LocList) (hs : ∀ s ∈ ss, SizeOk s) (h : countAll env disk ss = some ss')
    (h' : analyzeLanguages env disk ss = some out) : Triple (filesAnalyze env al disk p) (Files p ss) (fun q => Lst locEntry q out ⋆ Files p ss') := by
  refine Triple.ex fun xs => Triple.ex fun ls => ?_
  unfold filesAnalyze
  refine Triple.step (emp_star _).symm (listNew_does (E := locEntry) hal) fun q => ?_
  refine Triple.stepThen (star_left_comm ..) (getHead_does p xs ls) fun n hn => ?_
  rw [hn]
  refine Does.bind (v := ()) (Q := Lst locEntry q out ⋆ Spine p xs ls ⋆ FilesAt xs ss') ?_ ?_
  · rw [star_left_comm]
    exact analyzeFrom_does hal ok q p ls xs [] ss [] ss' [] out rfl hs h h'
  · refine Triple.pure fun h e => ?_
    obtain ⟨h1, h2, d, e, a, b⟩ := e
    exact ⟨h1, h2, d, e, a, xs, ls, b⟩

end

end Ohcount.Mem
