import Verif.SourceFileProps
/-
Property C57: what a source file reads from the disk.
-/

namespace Ohcount.SourceFileProps

open Ohcount

/-- What reading a file gives (specification): nothing if it cannot be opened or is empty. -/
def readFile (disk : Disk) (path : Bytes) : Option Bytes :=
  match disk path with
  | none => none
  | some b => if b = [] then none else some b

/-- Calls after which the text of the file may be another one. -/
def changesText : Op → Bool
  | .setContents _ | .setDiskpath _ | .diskChange _ => true
  | _ => false

/-- The state of a source file that has only read `x` from `path`. -/
structure Reads (disk : Disk) (path : Bytes) (s : SourceFile) : Prop where
  at_ : s.diskpath.getD s.filepath = path
  contents : s.contents = none ∨ s.contents = readFile disk path
  size : s.size = -1 ∧ s.contents = none ∨ s.size = ((readFile disk path).getD []).length

theorem Reads.load {disk : Disk} {path : Bytes} {s : SourceFile} (h : Reads disk path s) :
    Reads disk path (s.loadContents disk) ∧ (s.loadContents disk).contents = readFile disk path ∧
      (s.loadContents disk).size = ((readFile disk path).getD []).length := by
  unfold SourceFile.loadContents
  split
  · rename_i c hc
    have e : s.contents = readFile disk path := by
      rcases h.contents with e | e
      · rw [hc] at e; cases e
      · exact e
    refine ⟨h, e, ?_⟩
    rcases h.size with ⟨-, e'⟩ | e'
    · rw [hc] at e'; cases e'
    · exact e'
  · dsimp only
    rw [h.at_]
    have hp := h.at_
    have key : readFile disk path = match disk path with | some (b :: bs) => some (b :: bs) | _ => none := by
      unfold readFile
      cases disk path with
      | none => rfl
      | some b => cases b <;> rfl
    rw [key]
    split
    · rename_i b bs hd
      refine ⟨⟨hp, .inr (by rw [key, hd]), .inr (by rw [key, hd]; rfl)⟩, by rw [hd], by rw [hd]; rfl⟩
    · rename_i hd
      refine ⟨⟨hp, .inl rfl, .inr (by rw [key, hd]; rfl)⟩, by rw [hd], by rw [hd]; rfl⟩
    · rename_i hd
      refine ⟨⟨hp, .inl rfl, .inr (by rw [key, hd]; rfl)⟩, by rw [hd], by rw [hd]; rfl⟩

theorem Reads.sizeOf {disk : Disk} {path : Bytes} {s : SourceFile} (h : Reads disk path s) :
    Reads disk path (s.sizeOf disk) ∧ (s.sizeOf disk).size = ((readFile disk path).getD []).length := by
  unfold SourceFile.sizeOf
  split
  · exact ⟨h.load.1, h.load.2.2⟩
  · refine ⟨h, ?_⟩
    rcases h.size with ⟨e, -⟩ | e
    · rename_i hn
      rw [e] at hn
      exact absurd (by decide) hn
    · exact e

theorem Reads.detect {disk : Disk} {path : Bytes} {s : SourceFile} (env : Env) (h : Reads disk path s) :
    Reads disk path (s.detectLanguage env disk) := by
  unfold SourceFile.detectLanguage
  split
  · exact h
  · dsimp only
    split
    · have := h.load.1
      exact ⟨this.at_, this.contents, this.size⟩
    · exact ⟨h.at_, h.contents, h.size⟩

/-- The reports of a parse are those of the text of the file. -/
theorem Reads.run {disk : Disk} {path : Bytes} {s : SourceFile} (env : Env) (h : Reads disk path s) :
    Reads disk path (s.runParser env disk).1 ∧
      ((s.runParser env disk).2 = [] ∨ ∃ lang, (s.runParser env disk).2 =
        env.parse lang (readFile disk path) ((readFile disk path).getD []).length) := by
  unfold SourceFile.runParser
  have h1 := h.detect env
  dsimp only
  split
  · exact ⟨h1, .inl rfl⟩
  · split
    · rename_i lang _ _
      have h2 := h1.load.1
      have h3 := h2.sizeOf
      refine ⟨h3.1, .inr ⟨lang, ?_⟩⟩
      dsimp only
      rw [h3.2]
      congr 1
      unfold SourceFile.sizeOf
      split
      · exact h2.load.2.1
      · exact h1.load.2.1
    · exact ⟨h1, .inl rfl⟩

theorem Reads.parse {disk : Disk} {path : Bytes} {s s' : SourceFile} (env : Env) (h : Reads disk path s)
    (hs : s.doParse env disk = some s') : Reads disk path s' := by
  unfold SourceFile.doParse at hs
  split at hs
  · cases hs; exact h
  · have hr := (h.run env).1
    revert hs hr
    generalize s.runParser env disk = x
    rcases x with ⟨s1, reports⟩
    intro hs hr
    dsimp only at hs hr
    cases hrec : recordAll env.junk (s1.contents.getD []) [] reports with
    | none => rw [hrec] at hs; cases hs
    | some pls =>
      rw [hrec] at hs
      cases hs
      refine ⟨hr.at_, .inl rfl, ?_⟩
      rcases hr.size with ⟨e, -⟩ | e
      · exact .inl ⟨e, rfl⟩
      · exact .inr e

/-- What a result must be for a file that reads `x` (specification). -/
def SaysText (env : Env) (x : Option Bytes) : Res → Prop
  | .contents q => q = x
  | .size n => n = (x.getD []).length
  | .reports rs => rs = [] ∨ ∃ lang, rs = env.parse lang x (x.getD []).length
  | _ => True

theorem step_reads (env : Env) (path : Bytes) (w w' : World) (op : Op) (r : Res) (h : Reads w.disk path w.sf)
    (ho : changesText op = false) (hs : step env w op = some (w', r)) :
    w'.disk = w.disk ∧ Reads w.disk path w'.sf ∧ SaysText env (readFile w.disk path) r := by
  cases op with
  | setContents c => cases ho
  | setDiskpath p => cases ho
  | diskChange d => cases ho
  | getContents => cases hs; exact ⟨rfl, h.load.1, h.load.2.1⟩
  | getSize => cases hs; exact ⟨rfl, h.sizeOf.1, h.sizeOf.2⟩
  | setLanguage n =>
    cases hs
    refine ⟨rfl, ?_, trivial⟩
    dsimp only
    unfold SourceFile.setLanguage
    split
    · exact ⟨h.at_, h.contents, h.size⟩
    · exact h
  | getLanguage => cases hs; exact ⟨rfl, h.detect env, trivial⟩
  | parseWithCallback => cases hs; exact ⟨rfl, (h.run env).1, (h.run env).2⟩
  | parse =>
    simp only [step] at hs
    cases hp : w.sf.doParse env w.disk with
    | none => rw [hp] at hs; cases hs
    | some s => rw [hp] at hs; cases hs; exact ⟨rfl, h.parse env hp, trivial⟩
  | getParsed =>
    simp only [step] at hs
    cases hp : w.sf.doParse env w.disk with
    | none => rw [hp] at hs; cases hs
    | some s => rw [hp] at hs; cases hs; exact ⟨rfl, h.parse env hp, trivial⟩
  | getLicenses =>
    simp only [step, SourceFile.computeLicenses] at hs
    split at hs
    · cases hs; exact ⟨rfl, h, trivial⟩
    · cases hp : w.sf.doParse env w.disk with
      | none => rw [hp] at hs; cases hs
      | some s =>
        rw [hp] at hs; cases hs
        have := h.parse env hp
        exact ⟨rfl, ⟨this.at_, this.contents, this.size⟩, trivial⟩
  | getLoc =>
    simp only [step, SourceFile.computeLoc] at hs
    split at hs
    · cases hs; exact ⟨rfl, h, trivial⟩
    · cases hp : w.sf.doParse env w.disk with
      | none => rw [hp] at hs; cases hs
      | some s =>
        rw [hp] at hs; cases hs
        have := h.parse env hp
        exact ⟨rfl, ⟨this.at_, this.contents, this.size⟩, trivial⟩

theorem run_reads (env : Env) (path : Bytes) : ∀ (ops : List Op) (w w' : World) (res : List Res), Reads w.disk path w.sf →
    (∀ op ∈ ops, changesText op = false) → run env w ops = some (w', res) → ∀ r ∈ res, SaysText env (readFile w.disk path) r
  | [], w, w', res, _, _, h => by cases h; intro r hr; cases hr
  | op :: ops, w, w', res, hw, ho, h => by
    simp only [run] at h
    cases hs : step env w op with
    | none => rw [hs] at h; cases h
    | some x =>
      rcases x with ⟨w1, r⟩
      rw [hs] at h
      simp only [Option.bind_some] at h
      cases hr : run env w1 ops with
      | none => rw [hr] at h; cases h
      | some y =>
        rcases y with ⟨w2, rs⟩
        rw [hr] at h
        cases h
        obtain ⟨e, h1, h2⟩ := step_reads env path w w1 op r hw (ho op List.mem_cons_self) hs
        rw [← e] at h1 h2
        have ih := run_reads env path ops w1 _ rs h1 (fun o h => ho o (List.mem_cons_of_mem _ h)) hr
        rw [e] at h2 ih
        intro q hq
        rcases List.mem_cons.mp hq with rfl | hq
        · exact h2
        · exact ih q hq

/-- C57.  A new source file whose contents are never set, in any history of calls: its contents, their size and the text that
is parsed are the bytes of the file at its path. -/
theorem C57_reads_path (env : Env) (before : Byte) (path : Bytes) (disk : Disk) (ops : List Op) (w' : World) (res : List Res)
    (ho : ∀ op ∈ ops, changesText op = false) (hr : run env ⟨SourceFile.new before path, disk⟩ ops = some (w', res)) :
    ∀ r ∈ res, SaysText env (readFile disk path) r :=
  run_reads env path ops _ w' res ⟨rfl, .inl rfl, .inl ⟨rfl, rfl⟩⟩ ho hr

/-- C57.  If a disk path is set first, they are the bytes of the file at the disk path. -/
theorem C57_reads_diskpath (env : Env) (before : Byte) (path dp : Bytes) (disk : Disk) (ops : List Op) (w' : World) (res : List Res)
    (ho : ∀ op ∈ ops, changesText op = false)
    (hr : run env ⟨SourceFile.new before path, disk⟩ (.setDiskpath dp :: ops) = some (w', res)) :
    ∀ r ∈ res, SaysText env (readFile disk dp) r := by
  simp only [run, step, Option.bind_some] at hr
  cases hr' : run env ⟨{ SourceFile.new before path with diskpath := some dp }, disk⟩ ops with
  | none => rw [hr'] at hr; cases hr
  | some y =>
    rw [hr'] at hr
    cases hr
    intro r hr
    rcases List.mem_cons.mp hr with rfl | hr
    · trivial
    · exact run_reads env dp ops ⟨{ SourceFile.new before path with diskpath := some dp }, disk⟩ y.1 y.2
        ⟨rfl, .inl rfl, .inl ⟨rfl, rfl⟩⟩ ho hr' r hr

example : (run sampleEnv ⟨SourceFile.new 0 [97], fun p => if p = [98] then some [120, 10, 0] else some [7]⟩
      [.setDiskpath [98], .getSize, .getLoc, .parseWithCallback, .getContents]).map Prod.snd
    = some [.unit, .size 3, .loc [⟨"c", 1, 0, 0, 1⟩], .reports [⟨"c", .lcode, 0, 3⟩], .contents (some [120, 10, 0])] := by
  decide +kernel

end Ohcount.SourceFileProps
