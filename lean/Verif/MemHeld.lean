import Verif.MemFileProps

/-!
C76: how long the string that `ohcount_sourcefile_get_contents` returns can be used.
-/

namespace Ohcount.Mem

variable {env : Env} {al : Alloc} {disk : Disk}

/-! ### Programs that go wrong -/

/-- From every memory of which a part has the property `P` the program comes to an invalid access. -/
def Fails {α : Type} (f : M α) (P : Asn) : Prop := ∀ h r, Disj h r → Finite (join h r) → P h → f (join h r) = none

theorem Fails.bind {α β : Type} {f : M α} {g : α → M β} {P : Asn} {Q : α → Asn} (t : Triple f P Q) (t' : ∀ x, Fails (g x) (Q x)) : Fails (f >>= g) P := by
  intro h r d fin p
  obtain ⟨x, h', e, d', fin', q⟩ := t h r d fin p
  show (f (join h r)).bind (fun v => g v.1 v.2) = none
  rw [e]
  exact t' x h' r d' fin' q

theorem Fails.ofDoes {α β : Type} {f : M α} {g : α → M β} {P Q : Asn} {v : α} (t : Does f P v Q) (t' : Fails (g v) Q) : Fails (f >>= g) P :=
  Fails.bind t fun x h r d fin ⟨e, q⟩ => by rw [e]; exact t' h r d fin q

theorem Fails.step {α β : Type} {f : M α} {g : α → M β} {P A F : Asn} {B : α → Asn} (hP : P = A ⋆ F) (t : Triple f A B) (t' : ∀ x, Fails (g x) (B x ⋆ F)) :
    Fails (f >>= g) P := by
  subst hP
  exact Fails.bind (t.frame F) t'

theorem Fails.doStep {α β : Type} {f : M α} {g : α → M β} {P A B F : Asn} {v : α} (hP : P = A ⋆ F) (t : Does f A v B) (t' : Fails (g v) (B ⋆ F)) : Fails (f >>= g) P := by
  subst hP
  exact Fails.ofDoes (Does.frame t F) t'

theorem Fails.pre {α : Type} {f : M α} {P P' : Asn} (t : Fails f P') (hp : ∀ h, P h → P' h) : Fails f P := fun h r d fin p => t h r d fin (hp h p)

theorem Fails.fact {α : Type} {f : M α} {φ : Prop} {P : Asn} (t : φ → Fails f P) : Fails f (Mem.fact φ ⋆ P) := by
  intro h r d fin p
  obtain ⟨a, b⟩ := fact_star.mp p
  exact t a h r d fin b

theorem Fails.first {α β : Type} {f : M α} {g : α → M β} {P : Asn} (t : Fails f P) : Fails (f >>= g) P := by
  intro h r d fin p
  show (f (join h r)).bind (fun v => g v.1 v.2) = none
  rw [t h r d fin p]
  rfl

theorem Fails.ex {α γ : Type} {f : M α} {P : γ → Asn} (t : ∀ x, Fails f (P x)) : Fails f (Mem.ex P) := fun h r d fin ⟨x, p⟩ => t x h r d fin p

theorem Fails.know {α : Type} {f : M α} {φ : Prop} {P : Asn} (k : ∀ h, P h → h 0 = none → φ) (t : φ → Fails f P) : Fails f P := by
  intro h r d fin p
  exact t (k h p (Option.or_eq_none_iff.mp fin.1).1) h r d fin p

theorem Fails.frame {α : Type} {f : M α} {P R : Asn} (t : Fails f P) : Fails f (P ⋆ R) := by
  rintro _ r d fin ⟨h, k, dk, rfl, p, _⟩
  obtain ⟨d1, d2⟩ := join_disj.mp d
  rw [join_assoc] at fin ⊢
  exact t h (join k r) (by
    intro a
    rcases dk a with e | e
    · exact .inl e
    · rcases d1 a with e' | e'
      · exact .inl e'
      · exact .inr (by simp [join, e, e'])) fin p

/-- What has been freed cannot be read, whatever is written elsewhere. -/
theorem freed_fails {c p : Ptr} {b : Bytes} {f f' : FileRec} : Fails (do free c; setFile p f'; getText c) (cell c (.text b) ⋆ cell p (.file f)) := by
  rintro _ r d fin ⟨h1, h2, d', rfl, e1, e2⟩
  have hne : p ≠ c := fun e => by
    subst e
    rcases d' p with e | e
    · rw [cell_at e1] at e; cases e
    · rw [cell_at e2] at e; cases e
  have g1 : join (join h1 h2) r c = some (.text b) := by simp [join, cell_at e1]
  have g2 : join (join h1 h2) r p = some (.file f) := by
    simp [join, cell_at e2, cell_other e1 hne]
  have c0 : c ≠ 0 := fun e => by rw [e, fin.1] at g1; cases g1
  simp [free, setFile, getText, bind, StateT.bind, c0, g1, g2, put, hne, Ne.symm hne]

/-! ### Calls that leave the contents alone -/

theorem load_same {s : SourceFile} (h : s.contents ≠ none) : s.loadContents disk = s := by
  unfold SourceFile.loadContents
  cases hs : s.contents with
  | none => exact absurd hs h
  | some b => rfl

theorem detect_contents {s : SourceFile} (h : s.contents ≠ none) : (s.detectLanguage env disk).contents = s.contents := by
  unfold SourceFile.detectLanguage
  rw [load_same h]
  split
  · rfl
  · dsimp only
    split <;> rfl

theorem sizeOf_contents {s : SourceFile} (h : s.contents ≠ none) : (s.sizeOf disk).contents = s.contents := by
  unfold SourceFile.sizeOf
  rw [load_same h]
  split <;> rfl

theorem runParser_contents {s : SourceFile} (h : s.contents ≠ none) : (s.runParser env disk).1.contents = s.contents := by
  have hd : (s.detectLanguage env disk).contents ≠ none := by rw [detect_contents h]; exact h
  unfold SourceFile.runParser
  dsimp only
  rw [load_same hd]
  split
  · exact detect_contents h
  · split
    · show (SourceFile.sizeOf disk _).contents = _
      rw [sizeOf_contents hd, detect_contents h]
    · exact detect_contents h

theorem fileContents_same (p : Ptr) (s : SourceFile) (k : Slots) (hs : s.contents ≠ none) : Does (fileContents al disk p) (FileAt p s k) k.cp (FileAt p s k) := by
  refine Triple.know FileAt.null fun hn => ?_
  have hcp : (fileRec s k).contents ≠ 0 := fun e => hs (hn.2.1.mp e)
  unfold fileContents
  refine (FileAt.get p s k).bind ?_
  refine Does.bind (v := ()) (Q := FileAt p s k) (onlyIf_does (fun hc => absurd hc hcp) (fun _ _ e => ⟨rfl, e⟩)) ?_
  exact (FileAt.get p s k).bind (Triple.pure fun _ e => ⟨rfl, e⟩)

theorem fileLanguage_same (ok : EnvOk env) (p : Ptr) (s : SourceFile) (k : Slots) (hs : s.contents ≠ none) :
    Does (fileLanguage env al disk p) (FileAt p s k) (s.detectLanguage env disk).language (FileAt p (s.detectLanguage env disk) k) := by
  unfold fileLanguage
  refine (FileAt.get p s k).bind ?_
  refine Does.bind (v := ()) (Q := FileAt p (s.detectLanguage env disk) k) (onlyIf_does (fun hc => ?_) (fun hc h e => ⟨rfl, ?_⟩)) ?_
  · have hd : s.languageDetected = false := hc
    unfold fileDetect
    refine (view_does p s k).bind ?_
    rw [← ok.sees s disk]
    refine Does.bind (v := ()) (Q := FileAt p s k) (onlyIf_does (fun _ => ?_) (fun _ _ e => ⟨rfl, e⟩)) ?_
    · exact (fileContents_same p s k hs).bind (Triple.pure fun _ e => ⟨rfl, e⟩)
    · refine (FileAt.get p _ _).bind ?_
      refine Does.last rfl (setFile_does p _ _) fun h e => ⟨rfl, ?_⟩
      unfold SourceFile.detectLanguage
      rw [hd, if_neg (by simp)]
      dsimp only
      rw [load_same hs, ite_self]
      exact e
  · have : s.languageDetected = true := by
      cases e : s.languageDetected with
      | true => rfl
      | false => exact absurd e hc
    unfold SourceFile.detectLanguage
    rw [if_pos this]
    exact e
  · exact (FileAt.get p _ _).bind (Triple.pure fun _ e => ⟨rfl, e⟩)

theorem parserRun_same (ok : EnvOk env) (p : Ptr) (s : SourceFile) (k : Slots) (hs : s.contents ≠ none) :
    Does (parserRun env al disk p) (FileAt p s k) (s.runParser env disk).2 (FileAt p (s.runParser env disk).1 k) := by
  have hd : (s.detectLanguage env disk).contents ≠ none := by rw [detect_contents hs]; exact hs
  have hl : ((s.detectLanguage env disk).loadContents disk).sizeOf disk = s.detectLanguage env disk := by
    rw [load_sizeOf, load_same hd]
  unfold parserRun
  refine (fileLanguage_same ok p s k hs).bind ?_
  unfold SourceFile.runParser
  dsimp only
  rw [hl]
  cases (s.detectLanguage env disk).language with
  | none => exact Does.pure _ _
  | some lang =>
    dsimp only
    by_cases hp : env.hasParser lang = true
    · rw [if_pos hp, if_pos hp]
      unfold parserCall
      refine (fileContents_same p _ k hd).bind ?_
      refine (fileSize_same p _ k (.inr hd)).bind ?_
      refine Does.bind (v := (s.detectLanguage env disk).contents) (Q := FileAt p (s.detectLanguage env disk) k) (by
        rw [FileAt.atC]
        exact Does.frame (getTextOpt_does _ _) _) ?_
      exact Does.pure _ _
    · rw [if_neg hp, if_neg hp]
      exact Does.pure _ _

theorem getContents_same (p : Ptr) (s : SourceFile) (k : Slots) : Does (getTextOpt k.cp) (FileAt p s k) s.contents (FileAt p s k) := by
  rw [FileAt.atC]
  exact Does.frame (getTextOpt_does _ _) _

/-! ### Parsing -/

theorem callbacks_file (hal : Good al) (p : Ptr) (s : SourceFile) (rs : List Report) (pls pls' : List ParsedLanguage) (k : Slots) (hs : s.size = (s.contents.getD []).length)
    (ho : s.contents = none → ∀ r ∈ rs, r.kind = .lblank) (hr : recordAll env.junk (s.contents.getD []) pls rs = some pls') :
    Triple (callbacks env al p rs) (FileAt p { s with parsed := some pls } k) (fun _ => FileAt p { s with parsed := some pls' } k) := by
  refine Does.last (A := cell p (.file (fileRec s k)) ⋆ Lst plEntry k.pp pls ⋆ optText k.cp s.contents)
    (F := cell k.fp (.text s.filepath) ⋆ optText k.dp s.diskpath ⋆ optLics k.lp s.licenses ⋆ optLst locEntry k.kp s.locList) ?_
    (callbacks_does hal p (fileRec s k) s.contents hs rs pls pls' ho hr) fun h e => ?_
  · unfold FileAt Parts
    show cell p (.file (fileRec s k)) ⋆ cell k.fp (.text s.filepath) ⋆ optText k.dp s.diskpath ⋆ optText k.cp s.contents ⋆ Lst plEntry k.pp pls ⋆
      optLics k.lp s.licenses ⋆ optLst locEntry k.kp s.locList = _
    ac_rfl
  · show (cell p (.file (fileRec s k)) ⋆ cell k.fp (.text s.filepath) ⋆ optText k.dp s.diskpath ⋆ optText k.cp s.contents ⋆ Lst plEntry k.pp pls' ⋆
      optLics k.lp s.licenses ⋆ optLst locEntry k.kp s.locList) h
    have e' : (cell p (.file (fileRec s k)) ⋆ Lst plEntry k.pp pls' ⋆ optText k.cp s.contents) ⋆
        (cell k.fp (.text s.filepath) ⋆ optText k.dp s.diskpath ⋆ optLics k.lp s.licenses ⋆ optLst locEntry k.kp s.locList) =
      cell p (.file (fileRec s k)) ⋆ cell k.fp (.text s.filepath) ⋆ optText k.dp s.diskpath ⋆ optText k.cp s.contents ⋆ Lst plEntry k.pp pls' ⋆
        optLics k.lp s.licenses ⋆ optLst locEntry k.kp s.locList := by ac_rfl
    rw [← e']
    exact e

/-- The contents are freed by parsing. -/
theorem parse_fails (hal : Good al) (ok : EnvOk env) (p : Ptr) (s s' : SourceFile) (b : Bytes) (k : Slots) (hs : SizeOk s) (hb : s.contents = some b) (hp : s.parsed = none)
    (hd : s.doParse env disk = some s') : Fails (do fileParse env al disk p; getText k.cp) (FileAt p s k) := by
  refine Fails.know FileAt.null fun hn => ?_
  have hpp : (fileRec s k).parsed = 0 := hn.2.2.1.mpr hp
  have hc : s.contents ≠ none := by rw [hb]; exact fun h => nomatch h
  unfold fileParse
  simp only [bind_assoc]
  refine Fails.ofDoes (FileAt.get p s k) ?_
  unfold onlyIf
  rw [if_pos hpp]
  unfold SourceFile.doParse at hd
  rw [hp] at hd
  dsimp only at hd
  obtain ⟨pls, hpls, _⟩ := Option.bind_eq_some_iff.mp hd
  obtain ⟨r1, r2, r3⟩ := runParser_ok (disk := disk) ok hs
  have r2 : (s.runParser env disk).1.size = ((s.runParser env disk).1.contents.getD []).length := by
    rw [runParser_contents hc, hb]
    exact r1 b (by rw [runParser_contents hc, hb])
  unfold fileParseNow
  simp only [bind_assoc]
  refine Fails.step (emp_star _).symm (listNew_does (E := plEntry) hal) fun q => ?_
  rw [FileAt.atP, hp]
  show Fails _ (Lst plEntry q [] ⋆ (fact _ ⋆ _))
  rw [star_left_comm]
  refine Fails.fact fun _ => ?_
  refine Fails.doStep (star_left_comm ..) (setFile_does p _ _) ?_
  refine Fails.pre (P' := FileAt p { s with parsed := some [] } { k with pp := q }) ?_ fun h e => by
    rw [FileAt.atP]
    rw [star_left_comm] at e
    exact e
  refine Fails.ofDoes (parserRun_same ok p _ _ hc) ?_
  rw [run_parsed ok]
  refine Fails.bind (callbacks_file hal p _ _ [] pls { k with pp := q } r2 r3 hpls) fun _ => ?_
  refine Fails.ofDoes (FileAt.get p _ _) ?_
  have e : FileAt p { (s.runParser env disk).1 with parsed := some pls } { k with pp := q } =
      (cell k.cp (.text b) ⋆ cell p (.file (fileRec { (s.runParser env disk).1 with parsed := some pls } { k with pp := q }))) ⋆
        RestC { (s.runParser env disk).1 with parsed := some pls } { k with pp := q } := by
    rw [FileAt.atC, star_assoc]
    show optText k.cp (s.runParser env disk).1.contents ⋆ _ = _
    rw [runParser_contents hc, hb]
    rfl
  rw [e]
  exact Fails.frame freed_fails

/-- The contents are freed by `ohcount_sourcefile_set_contents` before the string is read. -/
theorem setBack_fails (hal : Good al) (p : Ptr) (s : SourceFile) : Fails (do let c ← fileContents al disk p; setContents al p c) (File p s) := by
  refine Fails.ex fun k => ?_
  refine Fails.bind (fileContents_does hal p s k) fun q => ?_
  refine Fails.know FileAt.null fun hn => ?_
  unfold setContents
  refine Fails.ofDoes (FileAt.get p _ _) ?_
  rw [FileAt.atC]
  cases hb : (s.loadContents disk).contents with
  | none =>
    have hq : q = 0 := hn.2.1.mpr hb
    subst hq
    refine Fails.doStep rfl (freeText_does 0 none) ?_
    refine Fails.first fun h r _ fin _ => ?_
    unfold getText
    rw [fin.1]
  | some b =>
    refine Fails.frame ?_
    have hq : q ≠ 0 := fun e => by rw [hn.2.1.mp e] at hb; cases hb
    intro h r d fin e
    have g : join h r q = some (.text b) := by simp [join, cell_at e]
    simp [onlyIf, fileRec, hq, free, g, getText, put, bind, StateT.bind]

/-! ### Calls while the contents are held -/

/-- The calls that leave the contents where they are. -/
def keeps : Op → Bool
  | .setDiskpath _ | .getContents | .getSize | .setLanguage _ | .getLanguage | .parseWithCallback | .diskChange _ => true
  | _ => false

/-- Calls on a source file, whose results are not looked at; others may change the disk in between. -/
def fileCalls (env : Env) (al : Alloc) (disk : Disk) (sf : Ptr) : List Op → M Unit
  | [] => pure ()
  | op :: ops => do
    let _ ← fileCall env al disk sf op
    fileCalls env al (diskAfter disk op) sf ops

/-- The source file at `p` has the contents `b`, and they are at `c`. -/
def Held (p : Ptr) (b : Bytes) (c : Ptr) : Asn := ex fun s => ex fun k => fact (s.contents = some b ∧ k.cp = c) ⋆ FileAt p s k

theorem Held.mk {p : Ptr} {b : Bytes} {c : Ptr} {s : SourceFile} {k : Slots} (h1 : s.contents = some b) (h2 : k.cp = c) : ∀ h, FileAt p s k h → Held p b c h :=
  fun _ e => ⟨s, k, fact_star.mpr ⟨⟨h1, h2⟩, e⟩⟩

theorem held_call (hal : Good al) (ok : EnvOk env) {p : Ptr} {b : Bytes} {c : Ptr} {op : Op} (h : keeps op = true) :
    Triple (fileCall env al disk p op) (Held p b c) (fun _ => Held p b c) := by
  refine Triple.ex fun s => Triple.ex fun k => Triple.fact fun ⟨hb, hc⟩ => ?_
  have hn : s.contents ≠ none := by rw [hb]; exact fun h => nomatch h
  cases op with
  | setDiskpath path =>
    unfold fileCall
    refine Triple.step (emp_star _).symm (malloc_does hal _) fun t => ?_
    refine Triple.bind (Q := fun _ => cell t (.text path) ⋆ Held p b c) ?_ fun _ => ?_
    · rw [star_comm]
      unfold setDiskpath
      refine Does.step rfl (FileAt.get p s k) ?_
      rw [FileAt.atD, star_assoc, star_assoc]
      refine Does.step rfl (freeText_does k.dp s.diskpath) ?_
      rw [emp_star]
      refine Does.step (A := cell t (.text path)) (F := cell p (.file (fileRec s k)) ⋆ RestD s k) (by ac_rfl) (getText_does t path) ?_
      refine Triple.step (emp_star _).symm (malloc_does hal _) fun q => ?_
      refine Does.last (A := cell p (.file (fileRec s k))) (F := cell q (.text path) ⋆ cell t (.text path) ⋆ RestD s k) (by ac_rfl) (setFile_does p _ _) fun h e => ?_
      have e' : cell p (.file { fileRec s k with diskpath := q }) ⋆ cell q (.text path) ⋆ cell t (.text path) ⋆ RestD s k =
          cell t (.text path) ⋆ FileAt p { s with diskpath := some path } { k with dp := q } := by
        rw [FileAt.atD]
        show _ = cell t (.text path) ⋆ cell q (.text path) ⋆ cell p (.file { fileRec s k with diskpath := q }) ⋆ RestD s k
        ac_rfl
      rw [e'] at e
      exact star_mono (fun _ e => e) (Held.mk (s := { s with diskpath := some path }) (k := { k with dp := q }) hb hc) h e
    · refine Does.step rfl (free_does t _) ?_
      rw [emp_star]
      exact Triple.pure fun _ e => e
  | getContents =>
    unfold fileCall
    refine (fileContents_same p s k hn).bind ?_
    refine Does.step (FileAt.atC ..) (getTextOpt_does _ _) ?_
    rw [← FileAt.atC]
    exact Triple.pure (Held.mk hb hc)
  | getSize =>
    unfold fileCall
    exact (fileSize_same p s k (.inr hn)).bind (Triple.pure (Held.mk hb hc))
  | setLanguage name =>
    unfold fileCall
    refine Triple.bind (Q := fun _ => Held p b c) ?_ fun _ => Triple.pure fun _ e => e
    unfold setLanguage
    cases env.knownName name with
    | none => exact Triple.pure (Held.mk hb hc)
    | some n =>
      refine (FileAt.get p s k).bind ?_
      exact Does.last rfl (setFile_does p _ _) fun h e => Held.mk (s := { s with language := some n, languageDetected := true }) hb hc h e
  | getLanguage =>
    unfold fileCall
    exact (fileLanguage_same ok p s k hn).bind (Triple.pure (Held.mk (by rw [detect_contents hn, hb]) hc))
  | parseWithCallback =>
    unfold fileCall
    exact (parserRun_same ok p s k hn).bind (Triple.pure (Held.mk (by rw [runParser_contents hn, hb]) hc))
  | diskChange d => exact Triple.pure (Held.mk hb hc)
  | setContents | parse | getParsed | getLicenses | getLoc => cases h

theorem held_calls (hal : Good al) (ok : EnvOk env) {p : Ptr} {b : Bytes} {c : Ptr} : ∀ {ops : List Op} {disk : Disk}, (∀ op ∈ ops, keeps op = true) →
    Triple (fileCalls env al disk p ops) (Held p b c) (fun _ => Held p b c)
  | [], _, _ => Triple.pure fun _ e => e
  | op :: ops, _, h => Triple.bind (held_call hal ok (h op (by simp))) fun _ => held_calls hal ok fun op ho => h op (List.mem_cons_of_mem _ ho)

theorem held_read {p : Ptr} {b : Bytes} {c : Ptr} : Does (getTextOpt c) (Held p b c) (some b) (Held p b c) := by
  refine Triple.ex fun s => Triple.ex fun k => Triple.fact fun ⟨hb, hc⟩ => ?_
  rw [FileAt.atC, hb, hc]
  refine Does.last rfl (getTextOpt_does _ _) fun h e => ⟨rfl, ?_⟩
  refine Held.mk hb hc h ?_
  rw [FileAt.atC, hb, hc]
  exact e

theorem Blocks.none {h : Mem} (e : Blocks 0 h) : h = nothing := by
  obtain ⟨l, _, h2, h3⟩ := e
  have : l = [] := List.eq_nil_of_length_eq_zero h2
  subst this
  funext a
  by_cases e : h a = Option.none
  · exact e
  · exact absurd ((h3 a).mp e) (fun h => nomatch h)

theorem Blocks.drop {P : Asn} : ∀ h, (Blocks 0 ⋆ P) h → P h := by
  rintro h ⟨h1, h2, _, e, a, b⟩
  rw [Blocks.none a, nothing_join] at e
  exact e ▸ b

/-- Calls on a source file of which nothing is held. -/
theorem any_calls (hal : Good al) (ok : EnvOk env) {p : Ptr} : ∀ {ops : List Op} {disk : Disk} {s : SourceFile}, SizeOk s → (∀ op ∈ ops, keeps op = true) →
    Triple (fileCalls env al disk p ops) (File p s) (fun _ => ex fun s => File p s)
  | [], _, s, _, _ => Triple.pure fun _ e => ⟨s, e⟩
  | op :: ops, disk, s, hs, h => by
    obtain ⟨x, r, hx⟩ : ∃ x r, Ohcount.step env ⟨s, disk⟩ op = some (x, r) := by
      have := h op (by simp)
      cases op <;> first | exact ⟨_, _, rfl⟩ | cases this
    obtain ⟨t, hd, hs'⟩ := fileCall_does (al := al) hal ok p s hs op x r hx
    have hl : lossOf op s x.sf = 0 := by
      have := h op (by simp)
      cases op <;> first | rfl | cases this
    unfold fileCalls
    refine Does.bind t ?_
    rw [hl]
    exact Triple.pre (any_calls hal ok hs' fun op ho => h op (List.mem_cons_of_mem _ ho)) Blocks.drop

/-! ### C76 -/

/-- A program with the pointers `x` gets the contents of a source file, reads them, makes calls on the source file, and reads the string that
it has been given again. -/
def heldText (env : Env) (al : Alloc) (x : Prog) (i : Nat) (ops : List Op) : M (Option Bytes × Option Bytes) := do
  let p ← (x.ps[i]? : Option Ptr)
  let c ← fileContents al x.disk p
  let t ← getTextOpt c
  fileCalls env al x.disk p ops
  let t' ← getTextOpt c
  pure (t, t')

/-- A program comes with the calls `cs` to the memory `m` and the pointers `x`, of which number `i` is to the source file `s`. -/
structure At (mc : Host) (al : Alloc) (disk : Disk) (cs : List FCall) (w : FWorld) (x : Prog) (m : Mem) (i : Nat) (s : SourceFile) : Prop where
  good : Good al
  meant : ∃ rs, FWorld.run (library mc) { disk := disk } cs = some (w, rs)
  done : ∃ rs, progRun (library mc) al { disk := disk } cs (fun _ => none) = some ((x, rs), m)
  file : w.objs[i]? = some (some (.file s))

/-- C76 in full: what `ohcount_sourcefile_get_contents` has returned can be read, and is the same, after any calls on the source file other
than `ohcount_sourcefile_set_contents`. -/
def C76_full : Prop := ∀ (mc : Host) (al : Alloc) (disk : Disk) (cs : List FCall) (w : FWorld) (x : Prog) (m : Mem) (i : Nat) (s : SourceFile), At mc al disk cs w x m i s →
  ∀ ops : List Op, (∀ op ∈ ops, ∀ c, op ≠ .setContents c) → Ohcount.run (library mc) ⟨s.loadContents w.disk, w.disk⟩ ops ≠ none →
  ∃ t m', heldText (library mc) al x i ops m = some ((t, t), m')

theorem run_ok' {al : Alloc} (hal : Good al) (ok : EnvOk env) : ∀ {cs : List FCall} {w w' : FWorld} {rs : List Res}, w.Ok → w.run env cs = some (w', rs) → w'.Ok
  | [], w, w', rs, hw, h => by cases h; exact hw
  | c :: cs, w, w', rs, hw, h => by
    unfold FWorld.run at h
    obtain ⟨⟨w1, r⟩, h1, h⟩ := Option.bind_eq_some_iff.mp h
    obtain ⟨⟨w2, rs'⟩, h2, h⟩ := Option.bind_eq_some_iff.mp h
    injection h with h
    rw [← (Prod.mk.inj h).1]
    exact run_ok' hal ok (progStep_does hal ok { disk := w.disk } w w1 c r hw h1).2 h2

/-- What is at such a point. -/
theorem At.split {mc : Host} {w : FWorld} {x : Prog} {m : Mem} {i : Nat} {s : SourceFile} {cs : List FCall} (h : At mc al disk cs w x m i s) :
    x.disk = w.disk ∧ SizeOk s ∧ Finite m ∧ ∃ p R, x.ps[i]? = some p ∧ (File p s ⋆ R) m := by
  obtain ⟨hal, ⟨rs, h1⟩, ⟨rs', h2⟩, hi⟩ := h
  have t := progRun_does hal (library_ok mc) cs { disk := disk } { disk := disk } w rs (fun o ho => nomatch ho) h1
  obtain ⟨y, m', h3, _, fin, _, q⟩ := t nothing nothing (Disj.nothing _) ⟨rfl, [], fun _ h => absurd rfl h⟩
    (fact_star.mpr ⟨rfl, none_lost _ rfl⟩)
  rw [join_nothing, join_nothing] at h3
  rw [join_nothing] at fin
  rw [show progRun (library mc) al { disk := disk } cs nothing = _ from h2] at h3
  injection h3 with h3
  obtain ⟨e1, e2⟩ := Prod.mk.inj h3
  subst e1 e2
  obtain ⟨hd, q⟩ := fact_star.mp q
  have hw := run_ok' hal (library_ok mc) (w := { disk := disk }) (fun o ho => nomatch ho) h1
  refine ⟨hd, hw _ (List.mem_of_getElem? hi), fin, ?_⟩
  have hl : x.ps.length = w.objs.length := by
    obtain ⟨_, _, _, _, _, b⟩ := q
    exact b.length
  obtain ⟨p, R, hp, h4, _⟩ := Objects.focus hi hl
  dsimp only at q
  rw [h4, star_left_comm] at q
  exact ⟨p, _, hp, q⟩

/-- A program that comes to a result from there. -/
theorem Triple.at {α : Type} {f : M α} {P R : Asn} {Q : α → Asn} (t : Triple f P Q) {m : Mem} (fin : Finite m) (h : (P ⋆ R) m) : ∃ v m', f m = some (v, m') ∧ (Q v ⋆ R) m' := by
  have := (t.frame R) m nothing (Disj.nothing _) (by rw [join_nothing]; exact fin) h
  obtain ⟨v, m', e, _, _, q⟩ := this
  rw [join_nothing, join_nothing] at e
  exact ⟨v, m', e, q⟩

theorem Fails.at {α : Type} {f : M α} {P R : Asn} (t : Fails f P) {m : Mem} (fin : Finite m) (h : (P ⋆ R) m) : f m = none := by
  have := t.frame (R := R) m nothing (Disj.nothing _) (by rw [join_nothing]; exact fin) h
  rw [join_nothing] at this
  exact this

/-- C76 for the calls that neither parse nor count nor look for licenses. -/
theorem C76_kept_partial {mc : Host} {w : FWorld} {x : Prog} {m : Mem} {i : Nat} {s : SourceFile} {cs : List FCall} (h : At mc al disk cs w x m i s) (ops : List Op)
    (hk : ∀ op ∈ ops, keeps op = true) : ∃ m', heldText (library mc) al x i ops m = some (((s.loadContents w.disk).contents, (s.loadContents w.disk).contents), m') := by
  obtain ⟨hd, hs, fin, p, R, hp, hm⟩ := h.split
  have t : Triple (heldText (library mc) al x i ops) (File p s) (fun v _ => v = ((s.loadContents w.disk).contents, (s.loadContents w.disk).contents)) := by
    unfold heldText
    refine Does.bind (ptr_does hp _) ?_
    rw [hd]
    refine Triple.ex fun k => ?_
    refine Triple.bind (fileContents_does h.good p s k) fun q => ?_
    refine Triple.know FileAt.null fun hn => ?_
    refine (getContents_same p _ { k with cp := q }).bind ?_
    cases hb : (s.loadContents w.disk).contents with
    | none =>
      have hq : q = 0 := hn.2.1.mpr hb
      subst hq
      refine Triple.bind (Triple.pre (any_calls h.good (library_ok mc) hs.load.1 hk) FileAt.file) fun _ => ?_
      exact Triple.pure fun _ _ => rfl
    | some b =>
      refine Triple.bind (Triple.pre (held_calls h.good (library_ok mc) hk) (Held.mk hb rfl)) fun _ => ?_
      exact held_read.bind (Triple.pure fun _ _ => rfl)
  obtain ⟨v, m', e, h1, h2, _, _, a, _⟩ := t.at fin hm
  exact ⟨m', by rw [e, a]⟩

/-- After the first call that parses the source file the string cannot be read any more. -/
theorem C76_parse {mc : Host} {w : FWorld} {x : Prog} {m : Mem} {i : Nat} {s : SourceFile} {cs : List FCall} (h : At mc al disk cs w x m i s) (hp : s.parsed = none)
    (hb : (s.loadContents w.disk).contents ≠ none) (hr : Ohcount.step (library mc) ⟨s.loadContents w.disk, w.disk⟩ .parse ≠ none) :
    heldText (library mc) al x i [.parse] m = none := by
  obtain ⟨hd, hs, fin, p, R, hx, hm⟩ := h.split
  obtain ⟨b, hb⟩ := Option.ne_none_iff_exists'.mp hb
  have hp' : (s.loadContents w.disk).parsed = none := by
    unfold SourceFile.loadContents
    cases hc : s.contents with
    | some _ => exact hp
    | none => dsimp only; split <;> exact hp
  obtain ⟨s', hs'⟩ : ∃ s', (s.loadContents w.disk).doParse (library mc) w.disk = some s' := by
    cases e : (s.loadContents w.disk).doParse (library mc) w.disk with
    | none => exact absurd (by unfold Ohcount.step; dsimp only; rw [e]; rfl) hr
    | some s' => exact ⟨s', rfl⟩
  refine Fails.at (P := File p s) ?_ fin hm
  unfold heldText
  refine Fails.ofDoes (ptr_does hx _) ?_
  rw [hd]
  refine Fails.ex fun k => ?_
  refine Fails.bind (fileContents_does h.good p s k) fun q => ?_
  refine Fails.know FileAt.null fun hn => ?_
  refine Fails.ofDoes (getContents_same p _ { k with cp := q }) ?_
  have hq : q ≠ 0 := fun e => by rw [hn.2.1.mp e] at hb; cases hb
  have t := Fails.first (g := fun t' => (pure ((s.loadContents w.disk).contents, some t') : M _))
    (parse_fails (al := al) h.good (library_ok mc) p (s.loadContents w.disk) s' b { k with cp := q } hs.load.1 hb hp' hs')
  simp only [fileCalls, fileCall, getTextOpt, if_neg hq, bind_assoc, pure_bind] at t ⊢
  exact t

/-- A program with the pointers `x` gets the contents of a source file and sets them. -/
def setBack (al : Alloc) (x : Prog) (i : Nat) : M Unit := do
  let p ← (x.ps[i]? : Option Ptr)
  let c ← fileContents al x.disk p
  setContents al p c

/-- And it cannot be passed to `ohcount_sourcefile_set_contents`. -/
theorem C76_setBack {mc : Host} {w : FWorld} {x : Prog} {m : Mem} {i : Nat} {s : SourceFile} {cs : List FCall} (h : At mc al disk cs w x m i s) :
    setBack al x i m = none := by
  obtain ⟨hd, hs, fin, p, R, hx, hm⟩ := h.split
  refine Fails.at (P := File p s) ?_ fin hm
  exact Fails.ofDoes (ptr_does hx _) (setBack_fails h.good p s)

/-- There are such points. -/
theorem at_start (hal : Good al) (mc : Host) (path : Bytes) (disk : Disk) :
    ∃ x m, At mc al disk [.new 0 path] { objs := [some (.file (.new 0 path))], disk := disk } x m 0 (.new 0 path) := by
  have h : FWorld.run (library mc) { disk := disk } [.new 0 path] = some ({ objs := [some (.file (.new 0 path))], disk := disk }, [.unit]) := rfl
  obtain ⟨x, m, h1, _⟩ := C74_files mc hal h
  exact ⟨x, m, hal, ⟨_, h⟩, ⟨_, h1⟩, rfl⟩

theorem C76_negation : ¬ C76_full := by
  intro hf
  obtain ⟨al, hal⟩ := good_exists
  obtain ⟨x, m, h⟩ := at_start hal LibraryProps.plainHost (Ragel.bytes "a.c") leakDisk
  have hs : (Ohcount.step (library LibraryProps.plainHost) ⟨(SourceFile.new 0 (Ragel.bytes "a.c")).loadContents leakDisk, leakDisk⟩ .parse).isSome = true := by decide +kernel
  have hs' : Ohcount.step (library LibraryProps.plainHost) ⟨(SourceFile.new 0 (Ragel.bytes "a.c")).loadContents leakDisk, leakDisk⟩ .parse ≠ none := fun e => by rw [e] at hs; cases hs
  have hr : (Ohcount.run (library LibraryProps.plainHost) ⟨(SourceFile.new 0 (Ragel.bytes "a.c")).loadContents leakDisk, leakDisk⟩ [.parse]).isSome = true := by decide +kernel
  have hb : ((SourceFile.new 0 (Ragel.bytes "a.c")).loadContents leakDisk).contents ≠ none := by decide +kernel
  obtain ⟨t, m', e⟩ := hf _ al _ _ _ x m 0 _ h [.parse] (fun op ho c => by simp at ho; subst ho; exact fun h => nomatch h) (fun e => by
    rw [show Ohcount.run (library LibraryProps.plainHost) ⟨(SourceFile.new 0 (Ragel.bytes "a.c")).loadContents leakDisk, leakDisk⟩ [.parse] = none from e] at hr
    cases hr)
  rw [C76_parse h rfl hb hs'] at e
  cases e

/-- Calls of every kind that leaves the contents alone. -/
example (mc : Host) (path : Bytes) (disk d : Disk) (hal : Good al) : ∃ x m m', heldText (library mc) al x 0 [.getSize, .setDiskpath path, .getLanguage, .diskChange d,
    .setLanguage "c", .parseWithCallback, .getContents] m =
      some ((((SourceFile.new 0 path).loadContents disk).contents, ((SourceFile.new 0 path).loadContents disk).contents), m') := by
  obtain ⟨x, m, h⟩ := at_start hal mc path disk
  obtain ⟨m', e⟩ := C76_kept_partial h [.getSize, .setDiskpath path, .getLanguage, .diskChange d, .setLanguage "c", .parseWithCallback, .getContents] (by
    intro op ho
    simp at ho
    rcases ho with rfl | rfl | rfl | rfl | rfl | rfl | rfl <;> rfl)
  exact ⟨x, m, m', e⟩

end Ohcount.Mem
