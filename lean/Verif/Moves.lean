import Verif.LineEndings

/-!
C109: code that is moved between the files of a project leaves the totals of the project as they are.
-/

namespace Ohcount.LibraryProps
open Ohcount.Ragel Ohcount.Gram Ohcount.Cert Ohcount.LocProps

/-- The file at the path is a file of the language, by its name, and its text is put together from the pieces, each of which
consists of complete lines and leaves no comment or string open. -/
def Divided (disk : Disk) (path : Bytes) (lang : String) (Ts : List (List Byte)) : Prop :=
  ∃ P L, (P, L) ∈ classified ∧ (bytes P.lang, P.name) ∈ Tables.parsers ∧ P.lang = lang ∧ Named lang path ∧ disk path = some Ts.flatten ∧
    ∀ T ∈ Ts, L.Piece T ∧ Plain T

/-- The comments and strings of a language. -/
def lexOf (lang : String) : Lexis := ((classified.find? fun x => x.1.lang == lang).map (·.2)).getD []

theorem lexOf_all : ∀ x ∈ classified, lexOf x.1.lang = x.2 := by
  have : (classified.all fun x => decide (lexOf x.1.lang = x.2)) = true := by decide +kernel
  exact fun x hx => of_decide_eq_true (List.all_eq_true.1 this x hx)

/-- A divided file is known, with the lines of its pieces. -/
theorem Divided.known {disk : Disk} {path : Bytes} {lang : String} {Ts : List (List Byte)} (h : Divided disk path lang Ts) :
    Known disk path lang ((lexOf lang).lines Ts.flatten) ∧
    ∀ k, linesOf ((lexOf lang).lines Ts.flatten) k = (Ts.map fun T => ((lexOf lang).kinds T).count k).sum := by
  obtain ⟨P, L, h1, h2, rfl, ⟨stem, e, h4, h5⟩, h6, h7⟩ := h
  have hL : lexOf P.lang = L := lexOf_all _ h1
  rw [hL]
  obtain ⟨a, b, c⟩ := parts_facts (classified_flat _ h1) [] (by decide) rfl Ts h7
  rw [List.append_nil] at a b c
  refine ⟨Known.lexis stem e P L _ h4 h5 h1 h2 h6 a b, ?_⟩
  intro k
  rw [linesOf_count]
  have : List.count k (List.map (fun x => x.2.2) (L.lines Ts.flatten)) = List.count k (L.kinds Ts.flatten) := rfl
  rw [this, c, List.count_append, List.count_flatten, List.map_map]
  rfl

theorem sum_perm {l l' : List Nat} (h : l.Perm l') : l.sum = l'.sum := by
  induction h with
  | nil => rfl
  | cons x _ ih => simp [ih]
  | swap x y l => simp; omega
  | trans _ _ a b => rw [a, b]

/-- The lines of a kind in the pieces of all files. -/
theorem total_pieces (f : Bytes → List Nat) : ∀ files : List Bytes,
    (files.map fun p => (((f p).sum : Nat) : Int)).sum = (((files.flatMap f).sum : Nat) : Int)
  | [] => rfl
  | p :: files => by
    rw [List.map_cons, List.sum_cons, List.flatMap_cons, List.sum_append, total_pieces f files]
    omega

/-- C109: in two states of a project the files of each language are put together from the same pieces, however these are
distributed over files and directories and whatever the files are called.  Then the summary shows the same numbers of code, comment
and blank lines for each language. -/
theorem C109_totals (mc : Host) (before before' : Byte) (disk disk' : Disk) (dir dir' : Bytes) (n n' : Node)
    (want want' : Bytes → String × List (List Byte)) (h : ∀ p ∈ addDirectory dir n, Divided disk p (want p).1 (want p).2)
    (h' : ∀ p ∈ addDirectory dir' n', Divided disk' p (want' p).1 (want' p).2)
    (hp : ∀ lang, (((addDirectory dir n).filter fun p => (want p).1 == lang).flatMap fun p => (want p).2).Perm
      (((addDirectory dir' n').filter fun p => (want' p).1 == lang).flatMap fun p => (want' p).2)) :
    ∃ T T', analyzeLanguages (library mc) disk (listAddDirectory before [] dir n) = some T ∧
      analyzeLanguages (library mc) disk' (listAddDirectory before' [] dir' n') = some T' ∧
      ∀ lang, (shown T lang).code = (shown T' lang).code ∧ (shown T lang).comments = (shown T' lang).comments ∧
        (shown T lang).blanks = (shown T' lang).blanks := by
  obtain ⟨T, t0, t1⟩ := C59_tree mc before disk dir n (fun p => ((want p).1, (lexOf (want p).1).lines (want p).2.flatten))
    fun p q => (h p q).known.1
  obtain ⟨T', s0, s1⟩ := C59_tree mc before' disk' dir' n' (fun p => ((want' p).1, (lexOf (want' p).1).lines (want' p).2.flatten))
    fun p q => (h' p q).known.1
  refine ⟨T, T', t0, s0, ?_⟩
  intro lang
  have key : ∀ (disk : Disk) (files : List Bytes) (want : Bytes → String × List (List Byte)), (∀ p ∈ files, Divided disk p (want p).1 (want p).2) →
      ∀ k, ((files.filter fun p => (want p).1 == lang).map fun p => (linesOf ((lexOf (want p).1).lines (want p).2.flatten) k : Int)).sum =
        ((((files.filter fun p => (want p).1 == lang).flatMap fun p => (want p).2).map fun T => ((lexOf lang).kinds T).count k).sum : Nat) := by
    intro disk files want hf k
    rw [List.map_flatMap, ← total_pieces]
    congr 1
    refine List.map_congr_left fun p hq => ?_
    obtain ⟨q1, q2⟩ := List.mem_filter.1 hq
    rw [(hf p q1).known.2 k]
    simp only [beq_iff_eq] at q2
    rw [q2]
  have hk : ∀ k, (((addDirectory dir n).filter fun p => (want p).1 == lang).map
        fun p => (linesOf ((lexOf (want p).1).lines (want p).2.flatten) k : Int)).sum =
      (((addDirectory dir' n').filter fun p => (want' p).1 == lang).map
        fun p => (linesOf ((lexOf (want' p).1).lines (want' p).2.flatten) k : Int)).sum := by
    intro k
    rw [key disk _ want h k, key disk' _ want' h' k, sum_perm ((hp lang).map _)]
  obtain ⟨a1, a2, a3, -⟩ := t1 lang
  obtain ⟨b1, b2, b3, -⟩ := s1 lang
  refine ⟨?_, ?_, ?_⟩
  · rw [a1, b1]; exact hk .lcode
  · rw [a2, b2]; exact hk .lcomment
  · rw [a3, b3]; exact hk .lblank

/-- A Java file with two pieces and a file of Ada; then the pieces are in two Java files in the other order, one of them in a directory. -/
example :
    let t1 := bytes "/* a\n\n */\n"
    let t2 := bytes "x = '\"';\n"
    let u := bytes "-- b\n"
    let disk : Disk := fun p => if p = bytes "d/a.java" then some (t1 ++ t2) else if p = bytes "d/b.adb" then some u else none
    let disk' : Disk := fun p => if p = bytes "e/s/y.java" then some t2 else if p = bytes "e/z.java" then some t1
      else if p = bytes "e/b.adb" then some u else none
    let n : Node := .dir true [(bytes "a.java", .reg), (bytes "b.adb", .reg)]
    let n' : Node := .dir true [(bytes "s", .dir true [(bytes "y.java", .reg)]), (bytes "b.adb", .reg), (bytes "z.java", .reg)]
    let want : Bytes → String × List (List Byte) := fun p => if p = bytes "d/a.java" then ("java", [t1, t2]) else ("ada", [u])
    let want' : Bytes → String × List (List Byte) := fun p => if p = bytes "e/s/y.java" then ("java", [t2])
      else if p = bytes "e/z.java" then ("java", [t1]) else ("ada", [u])
    (∀ p ∈ addDirectory (bytes "d") n, Divided disk p (want p).1 (want p).2) ∧
    (∀ p ∈ addDirectory (bytes "e") n', Divided disk' p (want' p).1 (want' p).2) ∧
    ∀ lang, (((addDirectory (bytes "d") n).filter fun p => (want p).1 == lang).flatMap fun p => (want p).2).Perm
      (((addDirectory (bytes "e") n').filter fun p => (want' p).1 == lang).flatMap fun p => (want' p).2) := by
  intro t1 t2 u disk disk' n n' want want'
  have e : addDirectory (bytes "d") n = [bytes "d/a.java", bytes "d/b.adb"] := by decide +kernel
  have e' : addDirectory (bytes "e") n' = [bytes "e/s/y.java", bytes "e/b.adb", bytes "e/z.java"] := by decide +kernel
  have hj : ∀ Ts : List (List Byte), (∀ T ∈ Ts, T = t1 ∨ T = t2) → ∀ T ∈ Ts, LexisTable.java_line.Piece T ∧ Plain T := by
    intro Ts h T hT
    rcases h T hT with rfl | rfl
    · decide +kernel
    · decide +kernel
  have hu : ∀ T ∈ [u], LexisTable.ada_line.Piece T ∧ Plain T := by decide +kernel
  have w1 : want (bytes "d/a.java") = ("java", [t1, t2]) := by decide +kernel
  have w2 : want (bytes "d/b.adb") = ("ada", [u]) := by decide +kernel
  have v1 : want' (bytes "e/s/y.java") = ("java", [t2]) := by decide +kernel
  have v2 : want' (bytes "e/b.adb") = ("ada", [u]) := by decide +kernel
  have v3 : want' (bytes "e/z.java") = ("java", [t1]) := by decide +kernel
  rw [e, e']
  refine ⟨?_, ?_, ?_⟩
  · intro p hp
    simp only [List.mem_cons, List.not_mem_nil, or_false] at hp
    rcases hp with rfl | rfl
    · rw [w1]
      exact ⟨parse_java, LexisTable.java_line, by simp [classified], by decide +kernel, rfl, ⟨bytes "d/a", bytes "java", by decide +kernel, by decide +kernel⟩,
        by decide +kernel, hj _ (by simp)⟩
    · rw [w2]
      exact ⟨parse_ada, LexisTable.ada_line, by simp [classified], by decide +kernel, rfl, ⟨bytes "d/b", bytes "adb", by decide +kernel, by decide +kernel⟩,
        by decide +kernel, hu⟩
  · intro p hp
    simp only [List.mem_cons, List.not_mem_nil, or_false] at hp
    rcases hp with rfl | rfl | rfl
    · rw [v1]
      exact ⟨parse_java, LexisTable.java_line, by simp [classified], by decide +kernel, rfl, ⟨bytes "e/s/y", bytes "java", by decide +kernel, by decide +kernel⟩,
        by decide +kernel, hj _ (by simp)⟩
    · rw [v2]
      exact ⟨parse_ada, LexisTable.ada_line, by simp [classified], by decide +kernel, rfl, ⟨bytes "e/b", bytes "adb", by decide +kernel, by decide +kernel⟩,
        by decide +kernel, hu⟩
    · rw [v3]
      exact ⟨parse_java, LexisTable.java_line, by simp [classified], by decide +kernel, rfl, ⟨bytes "e/z", bytes "java", by decide +kernel, by decide +kernel⟩,
        by decide +kernel, hj _ (by simp)⟩
  · intro lang
    simp only [List.filter_cons, List.filter_nil, w1, w2, v1, v2, v3]
    by_cases h1 : lang = "java"
    · subst h1
      have : ("ada" == "java") = false := by decide
      simp only [this, beq_self_eq_true, if_true, Bool.false_eq_true, if_false, List.flatMap_cons, List.flatMap_nil, w1, v1, v3]
      exact List.Perm.swap t2 t1 []
    · have : ("java" == lang) = false := by simpa using fun e => h1 e.symm
      simp only [this, Bool.false_eq_true, if_false]
      split
      · simp only [List.flatMap_cons, List.flatMap_nil, w2, v2]; exact .refl _
      · exact .refl _

end Ohcount.LibraryProps
