/-
Properties C43, C44, C45 and C49: the command line tool.
-/
import Verif.Cli
import Verif.SourceFileProps
import Verif.ParsedLanguageProps

namespace Ohcount.CliProps

open Ohcount Ohcount.Cli Ohcount.LocProps Ohcount.SourceFileProps

/-! ### C43: sorting -/

section

variable (better : Loc → Loc → Bool) (le : Loc → Loc → Prop)

theorem findBest_spec (hrefl : ∀ a, le a a) (htr : ∀ a b c, le a b → le b c → le a c)
    (hb : ∀ a b, better a b = true → le a b) (hnb : ∀ a b, better a b = false → le b a)
    (l : LocList) : ∀ (n iter2 best : Nat), iter2 + n = l.length → best < iter2 →
    best ≤ findBest better l n iter2 best ∧ findBest better l n iter2 best < l.length ∧
      ∀ v, l[findBest better l n iter2 best]? = some v → ∀ w,
        (l[best]? = some w ∨ ∃ j, iter2 ≤ j ∧ l[j]? = some w) → le v w := by
  intro n
  induction n with
  | zero =>
    intro iter2 best h1 h2
    refine ⟨Nat.le_refl _, by simp only [findBest]; omega, ?_⟩
    intro v hv w hw
    simp only [findBest] at hv
    rcases hw with hw | ⟨j, hj, hw⟩
    · rw [hv] at hw; cases hw; exact hrefl v
    · have := (List.getElem?_eq_some_iff.mp hw).1; omega
  | succ n ih =>
    intro iter2 best h1 h2
    have ha : l[iter2]? = some l[iter2] := List.getElem?_eq_getElem (by omega)
    have hbst : l[best]? = some l[best] := List.getElem?_eq_getElem (by omega)
    rw [findBest, ha, hbst]
    simp only
    by_cases hc : better l[iter2] l[best] = true
    · rw [if_pos hc]
      obtain ⟨i1, i2, i3⟩ := ih (iter2 + 1) iter2 (by omega) (by omega)
      refine ⟨by omega, i2, ?_⟩
      intro v hv w hw
      have h3 := i3 v hv
      rcases hw with hw | ⟨j, hj, hw⟩
      · cases hw
        exact htr _ _ _ (h3 _ (Or.inl ha)) (hb _ _ hc)
      · by_cases e : j = iter2
        · subst e; exact h3 w (Or.inl hw)
        · exact h3 w (Or.inr ⟨j, by omega, hw⟩)
    · rw [if_neg hc]
      simp only [Bool.not_eq_true] at hc
      obtain ⟨i1, i2, i3⟩ := ih (iter2 + 1) best (by omega) (by omega)
      refine ⟨i1, i2, ?_⟩
      intro v hv w hw
      have h3 := i3 v hv
      rcases hw with hw | ⟨j, hj, hw⟩
      · exact h3 w (Or.inl (by rw [hbst]; exact hw))
      · by_cases e : j = iter2
        · subst e
          rw [ha] at hw; cases hw
          exact htr _ _ _ (h3 _ (Or.inl hbst)) (hnb _ _ hc)
        · exact h3 w (Or.inr ⟨j, by omega, hw⟩)

theorem swapLoc_perm (l : LocList) (i j : Nat) (hi : i < l.length) (hj : j < l.length) :
    (swapLoc l i j).Perm l := by
  unfold swapLoc
  rw [List.getElem?_eq_getElem hi, List.getElem?_eq_getElem hj]
  simp only
  split
  · exact List.set_set_perm hi hj
  · exact List.Perm.refl l

theorem swapLoc_get (l : LocList) (i j : Nat) (hi : i < l.length) (hj : j < l.length) (x : Nat) :
    (swapLoc l i j)[x]? = if x = i then l[j]? else if x = j then l[i]? else l[x]? := by
  unfold swapLoc
  rw [List.getElem?_eq_getElem hi, List.getElem?_eq_getElem hj]
  simp only
  by_cases hij : i = j
  · subst hij
    rw [if_neg (by simp)]
    by_cases hx : x = i
    · subst hx; rw [if_pos rfl]; exact List.getElem?_eq_getElem hi
    · rw [if_neg hx, if_neg hx]
  · rw [if_pos hij]
    by_cases hx : x = j
    · subst hx
      rw [if_neg (fun h => hij h.symm), if_pos rfl, List.getElem?_set_self (by simpa using hj)]
    · rw [List.getElem?_set_ne (fun h => hx h.symm), if_neg hx]
      by_cases hx2 : x = i
      · subst hx2
        rw [if_pos rfl, List.getElem?_set_self hi]
      · rw [if_neg hx2, List.getElem?_set_ne (fun h => hx2 h.symm)]

theorem sortFrom_spec (hrefl : ∀ a, le a a) (htr : ∀ a b c, le a b → le b c → le a c)
    (hb : ∀ a b, better a b = true → le a b) (hnb : ∀ a b, better a b = false → le b a) :
    ∀ (n i : Nat) (l : LocList), i + n = l.length →
    (∀ (x y : Nat) (v w : Loc), x < y → x < i → l[x]? = some v → l[y]? = some w → le v w) →
    (sortFrom better n i l).Perm l ∧
    ∀ (x y : Nat) (v w : Loc), x < y → (sortFrom better n i l)[x]? = some v →
      (sortFrom better n i l)[y]? = some w → le v w := by
  intro n
  induction n with
  | zero =>
    intro i l h1 h2
    refine ⟨List.Perm.refl l, ?_⟩
    intro x y v w hxy hv hw
    exact h2 x y v w hxy (by have := (List.getElem?_eq_some_iff.mp hv).1; simp only [sortFrom] at this; omega) hv hw
  | succ n ih =>
    intro i l h1 h2
    obtain ⟨b1, b2, b3⟩ := findBest_spec better le hrefl htr hb hnb l (l.length - (i + 1)) (i + 1) i
      (by omega) (by omega)
    rw [sortFrom]
    generalize findBest better l (l.length - (i + 1)) (i + 1) i = k at b1 b2 b3
    have hp := swapLoc_perm l i k (by omega) b2
    have hget := swapLoc_get l i k (by omega) b2
    obtain ⟨p, q⟩ := ih (i + 1) (swapLoc l i k) (by rw [hp.length_eq]; omega) (by
      intro x y v w hxy hx hv hw
      rw [hget] at hv hw
      by_cases hxi : x = i
      · subst hxi
        rw [if_pos rfl] at hv
        rw [if_neg (by omega)] at hw
        by_cases hyk : y = k
        · rw [if_pos hyk] at hw
          exact b3 v hv w (Or.inl hw)
        · rw [if_neg hyk] at hw
          exact b3 v hv w (Or.inr ⟨y, by omega, hw⟩)
      · rw [if_neg hxi, if_neg (by omega)] at hv
        by_cases hyi : y = i
        · rw [if_pos hyi] at hw
          exact h2 x k v w (by omega) (by omega) hv hw
        · rw [if_neg hyi] at hw
          by_cases hyk : y = k
          · rw [if_pos hyk] at hw
            exact h2 x i v w (by omega) (by omega) hv hw
          · rw [if_neg hyk] at hw
            exact h2 x y v w hxy (by omega) hv hw)
    exact ⟨p.trans hp, q⟩

theorem pairwise_of_get {R : Loc → Loc → Prop} (l : LocList)
    (h : ∀ (x y : Nat) (v w : Loc), x < y → l[x]? = some v → l[y]? = some w → R v w) : l.Pairwise R := by
  rw [List.pairwise_iff_getElem]
  intro i j hi hj hij
  exact h i j _ _ hij (List.getElem?_eq_getElem hi) (List.getElem?_eq_getElem hj)

end

/-- C43: sorting by language keeps the entries and orders them by name. -/
theorem C43_by_language (l : LocList) :
    (sortByLanguage l).Perm l ∧
    (sortByLanguage l).Pairwise (fun a b => a.language ≤ b.language) := by
  obtain ⟨p, q⟩ := sortFrom_spec (fun a b => decide (a.language < b.language))
    (fun a b => a.language ≤ b.language) (fun a => String.le_refl _)
    (fun a b c h1 h2 => String.le_trans h1 h2)
    (fun a b h => by
      have : a.language < b.language := by simpa using h
      rcases String.le_total a.language b.language with h' | h'
      · exact h'
      · exact absurd this (String.not_lt.mpr h'))
    (fun a b h => by
      have : ¬ a.language < b.language := by simpa using h
      exact String.not_lt.mp this)
    l.length 0 l (by omega) (by intro x y v w _ h; omega)
  exact ⟨p, pairwise_of_get _ q⟩

/-- C43: sorting by code keeps the entries and orders them by decreasing code. -/
theorem C43_by_code (l : LocList) :
    (sortByCode l).Perm l ∧ (sortByCode l).Pairwise (fun a b => a.code ≥ b.code) := by
  obtain ⟨p, q⟩ := sortFrom_spec (fun a b => decide (a.code > b.code))
    (fun a b => a.code ≥ b.code) (fun a => Int.le_refl _)
    (fun a b c h1 h2 => Int.le_trans h2 h1)
    (fun a b h => by
      have : a.code > b.code := by simpa using h
      omega)
    (fun a b h => by
      have : ¬ a.code > b.code := by simpa using h
      omega)
    l.length 0 l (by omega) (by intro x y v w _ h; omega)
  exact ⟨p, pairwise_of_get _ q⟩

example : sortByCode [⟨"c", 3, 0, 0, 1⟩, ⟨"awk", 9, 1, 0, 1⟩, ⟨"lua", 5, 0, 2, 1⟩] =
    [⟨"awk", 9, 1, 0, 1⟩, ⟨"lua", 5, 0, 2, 1⟩, ⟨"c", 3, 0, 0, 1⟩] := by decide +kernel
example : sortByLanguage [⟨"lua", 3, 0, 0, 1⟩, ⟨"awk", 9, 1, 0, 1⟩, ⟨"c", 5, 0, 2, 1⟩] =
    [⟨"awk", 9, 1, 0, 1⟩, ⟨"c", 5, 0, 2, 1⟩, ⟨"lua", 3, 0, 0, 1⟩] := by decide +kernel

/-! ### C44: the figures -/

/-- The rows of the summary are, in some order, the entries of the analysis, by decreasing
code. -/
theorem C44_rows (n : Nat) (locs : LocList) :
    ((summaryOf n locs).rows.map fun r => (r.language, r.files, r.code, r.comments, r.blanks)).Perm
      (locs.map fun l => (l.language, l.filecount, l.code, l.comments, l.blanks)) ∧
    (summaryOf n locs).rows.Pairwise (fun a b => a.code ≥ b.code) := by
  obtain ⟨p, q⟩ := C43_by_code locs
  constructor
  · simp only [summaryOf, List.map_map]
    exact p.map (fun l : Loc => (l.language, l.filecount, l.code, l.comments, l.blanks))
  · simp only [summaryOf]
    rw [List.pairwise_map]
    exact q

/-- C44: every column of the totals row is the sum of that column, and every row adds up. -/
theorem C44_totals (env : Env) (disk : Disk) (files : List SourceFile) (s : Summary)
    (h : summary env disk files = some s) :
    s.examined = files.length ∧
    s.totals.files = (s.rows.map Row.files).sum ∧
    s.totals.code = (s.rows.map Row.code).sum ∧
    s.totals.comments = (s.rows.map Row.comments).sum ∧
    s.totals.blanks = (s.rows.map Row.blanks).sum ∧
    s.totals.total = (s.rows.map Row.total).sum ∧
    ∀ r ∈ s.totals :: s.rows, r.total = r.code + r.comments + r.blanks := by
  unfold summary at h
  rw [Option.map_eq_some_iff] at h
  obtain ⟨L, _, rfl⟩ := h
  have t := C02_total_is_sum (sortByCode L)
  have key : ∀ (f : Loc → Int) (g : Row → Int), (∀ l, g (rowOf l) = f l) →
      LocList.sumLoop f (sortByCode L) = (((sortByCode L).map rowOf).map g).sum := by
    intro f g hfg
    rw [sumLoop_eq, List.map_map]
    unfold sumAll
    congr 1
    apply List.map_congr_left
    intro a _
    exact (hfg a).symm
  refine ⟨rfl, key _ _ fun _ => rfl, key _ _ fun _ => rfl, key _ _ fun _ => rfl,
    key _ _ fun _ => rfl, ?_, ?_⟩
  · show (sortByCode L).code + (sortByCode L).comments + (sortByCode L).blanks = _
    rw [← t]
    exact key _ _ fun _ => rfl
  · intro r hr
    rcases List.mem_cons.mp hr with rfl | hr
    · rfl
    · obtain ⟨l, _, rfl⟩ := List.mem_map.mp hr
      rfl

/-- A percentage is printed from this row by a division by a positive number, and (for
counts that are not negative) lies between 0 and 100; none is computed only when there
is neither code nor comment. -/
def PercentOk (r : Row) : Prop :=
  match r.percent with
  | some (n, d) => d > 0 ∧ n = r.comments ∧ d = r.code + r.comments ∧
      (0 ≤ r.comments → 0 ≤ r.code → 0 ≤ n ∧ n ≤ d)
  | none => 0 ≤ r.comments → 0 ≤ r.code → r.comments = 0 ∧ r.code = 0

theorem percentOk (lang : String) (f c m b t : Int) : PercentOk ⟨lang, f, c, m, percentOf c m, b, t⟩ := by
  unfold PercentOk percentOf
  dsimp only
  split
  · rename_i n d h
    split at h
    · cases h; exact ⟨by omega, rfl, by omega, by omega⟩
    · cases h
  · rename_i h
    split at h
    · cases h
    · intro h1 h2; omega

/-- C44: no percentage divides by zero. -/
theorem C44_percentages (env : Env) (disk : Disk) (files : List SourceFile) :
    (∀ s, summary env disk files = some s → ∀ r ∈ s.totals :: s.rows, PercentOk r) ∧
    (∀ n rs, individual env disk files = some (n, rs) → ∀ f ∈ rs, ∀ r ∈ f.2, PercentOk r) := by
  constructor
  · intro s h r hr
    unfold summary at h
    rw [Option.map_eq_some_iff] at h
    obtain ⟨L, _, rfl⟩ := h
    rcases List.mem_cons.mp hr with rfl | hr
    · exact percentOk ..
    · obtain ⟨l, _, rfl⟩ := List.mem_map.mp hr
      exact percentOk ..
  · intro n rs h
    unfold individual at h
    rw [Option.map_eq_some_iff] at h
    obtain ⟨r', h, e⟩ := h
    cases e
    induction files generalizing rs with
    | nil => cases h; intro f hf; cases hf
    | cons s rest ih =>
      rw [individualLoop] at h
      simp only [Option.bind_eq_some_iff] at h
      obtain ⟨s1, _, rr, hr, e⟩ := h
      cases e
      intro f hf
      rcases List.mem_cons.mp hf with rfl | hf
      · intro r hr
        obtain ⟨l, _, rfl⟩ := List.mem_map.mp hr
        exact percentOk ..
      · exact ih rr hr f hf

/-- C44: the individual report has, file by file in list order, the counts of the file,
one row per entry, ordered by language name. -/
theorem C44_individual (env : Env) (disk : Disk) (files : List SourceFile) (n : Nat)
    (rs : List (Bytes × List Row)) (h : individual env disk files = some (n, rs)) :
    n = files.length ∧ rs.map Prod.fst = files.map SourceFile.filepath ∧
    ∀ (i : Nat) (s : SourceFile) (f : Bytes × List Row), files[i]? = some s → rs[i]? = some f →
      (f.2.map fun r => (r.language, r.code, r.comments, r.blanks, r.total)).Perm
        ((fileCounts env disk s).map fun l =>
          (l.language, l.code, l.comments, l.blanks, l.code + l.comments + l.blanks)) ∧
      f.2.Pairwise (fun a b => a.language ≤ b.language) := by
  unfold individual at h
  rw [Option.map_eq_some_iff] at h
  obtain ⟨r', h, e⟩ := h
  cases e
  refine ⟨rfl, ?_⟩
  induction files generalizing rs with
  | nil => cases h; exact ⟨rfl, fun i s f hs => by simp at hs⟩
  | cons s rest ih =>
    rw [individualLoop] at h
    simp only [Option.bind_eq_some_iff] at h
    obtain ⟨s1, h1, rr, hr, e⟩ := h
    cases e
    obtain ⟨a, b⟩ := ih rr hr
    refine ⟨by simp [a], ?_⟩
    intro i s' f hs hf
    cases i with
    | zero =>
      simp only [List.getElem?_cons_zero, Option.some.injEq] at hs hf
      subst hs; subst hf
      have hc : fileCounts env disk s = s1.locList.getD [] := by
        unfold fileCounts; rw [h1]; rfl
      obtain ⟨p, q⟩ := C43_by_language (s1.locList.getD [])
      rw [hc]
      constructor
      · rw [List.map_map]
        exact p.map (fun l : Loc =>
          (l.language, l.code, l.comments, l.blanks, l.code + l.comments + l.blanks))
      · rw [List.pairwise_map]; exact q
    | succ i =>
      simp only [List.getElem?_cons_succ] at hs hf
      exact b i s' f hs hf

/-- Non-vacuity: a summary of two files. -/
example : summary sampleEnv (fun _ => some [120, 10])
      [SourceFile.new 0 [97, 46, 99], SourceFile.new 0 [98]] =
    some ⟨2, [⟨"c", 2, 2, 0, some (0, 2), 0, 2⟩], ⟨"Total", 2, 2, 0, some (0, 2), 0, 2⟩⟩ := by
  decide +kernel

/-! ### C45: selection -/

/-- The documented options (`help`, src/ohcount.c:75-82). -/
def documented : List (String × Command) :=
  [("-a", .annotate), ("--annotate", .annotate), ("-d", .detect), ("--detect", .detect),
   ("-h", .help), ("--help", .help), ("-i", .individual), ("--individual", .individual),
   ("-l", .licenses), ("--license", .licenses), ("-re", .rawEntities),
   ("-s", .summary), ("--summary", .summary)]

/-- The files a path argument stands for: the files below a directory, or the file. -/
def filesOf (fs : Fs) (path : Bytes) : List Bytes :=
  match fs.openDir path with
  | some entries => addDirectory path (.dir true entries)
  | none => if fs.canOpen path then [path] else []

/-- The argument is neither a directory nor a readable file. -/
def isBad (fs : Fs) (path : Bytes) : Bool := (fs.openDir path).isNone && !fs.canOpen path

theorem listAdd_fold (before : Byte) (ps : List Bytes) (l : List SourceFile) :
    ps.foldl (listAddFile before) l = l ++ ps.map (SourceFile.new before) := by
  induction ps generalizing l with
  | nil => simp
  | cons p ps ih => simp [ih, listAddFile]

theorem addPaths_eq (before : Byte) (fs : Fs) (paths : List Bytes) : ∀ files bad,
    addPaths before fs paths (files, bad) =
      (files ++ (paths.flatMap (filesOf fs)).map (SourceFile.new before),
       bad ++ paths.filter (isBad fs)) := by
  induction paths with
  | nil => intro files bad; simp [addPaths]
  | cons a rest ih =>
    intro files bad
    rw [addPaths]
    cases hd : fs.openDir a with
    | some es =>
      simp only [ih, addDir, hd, listAddDirectory, listAdd_fold]
      simp [filesOf, isBad, hd]
    | none =>
      simp only
      by_cases hc : fs.canOpen a = true
      · rw [if_pos hc, ih]
        simp [filesOf, isBad, hd, hc, listAddFile]
      · rw [if_neg hc, ih]
        simp only [Bool.not_eq_true] at hc
        simp [filesOf, isBad, hd, hc]

/-- The command and the paths of an argument vector: the first argument counts as an
option exactly when it is a documented one. -/
inductive Selects : List Bytes → Command → List Bytes → Prop
  | none : Selects [] .summary []
  | option (a : Bytes) (name : String) (c : Command) (ps : List Bytes)
      (h : (name, c) ∈ documented) (ha : name.toUTF8.toList = a) : Selects (a :: ps) c ps
  | paths (a : Bytes) (ps : List Bytes) (h : ∀ e ∈ documented, e.1.toUTF8.toList ≠ a) :
      Selects (a :: ps) .summary (a :: ps)

/-- The files below the current directory. -/
def currentDirectory (fs : Fs) : List Bytes :=
  match fs.openDir [chDot] with
  | some entries => addDirectory [chDot] (.dir true entries)
  | none => []

theorem options_nodup : (optionTable.map fun e => e.1.toUTF8.toList).Nodup := by decide +kernel

theorem commandFromFlag_some (a : Bytes) (name : String) (c : Command) (h : (name, c) ∈ documented)
    (ha : name.toUTF8.toList = a) : commandFromFlag a = some c := by
  subst ha
  revert h name c
  have : ∀ e ∈ documented, commandFromFlag e.1.toUTF8.toList = some e.2 := by decide +kernel
  intro name c h
  exact this (name, c) h

theorem commandFromFlag_none (a : Bytes) (h : ∀ e ∈ documented, e.1.toUTF8.toList ≠ a) :
    commandFromFlag a = none := by
  unfold commandFromFlag
  rw [Option.map_eq_none_iff, List.find?_eq_none]
  intro e he
  simpa using h e he

/-- C45: every argument vector selects one command and one list of paths. -/
theorem C45_selects_total (args : List Bytes) : ∃ c paths, Selects args c paths := by
  cases args with
  | nil => exact ⟨_, _, .none⟩
  | cons a rest =>
    by_cases h : ∀ e ∈ documented, e.1.toUTF8.toList ≠ a
    · exact ⟨_, _, .paths a rest h⟩
    · simp only [ne_eq, Classical.not_forall, Classical.not_not] at h
      obtain ⟨⟨name, c⟩, hm, ha⟩ := h
      exact ⟨_, _, .option a name c rest hm ha⟩

/-- C45: the selection is unique. -/
theorem C45_selects_unique (args p p' : List Bytes) (c c' : Command) (h : Selects args c p)
    (h' : Selects args c' p') : c = c' ∧ p = p' := by
  cases h with
  | none => cases h'; exact ⟨rfl, rfl⟩
  | option a name c ps hm ha =>
    have h1 := commandFromFlag_some a name c hm ha
    cases h' with
    | option _ name' _ _ hm' ha' =>
      have h2 := commandFromFlag_some a name' c' hm' ha'
      rw [h1] at h2; cases h2; exact ⟨rfl, rfl⟩
    | paths _ _ hno => exact absurd ha (hno (name, c) hm)
  | paths a ps hno =>
    cases h' with
    | option _ name' _ _ hm' ha' => exact absurd ha' (hno (name', c') hm')
    | paths _ _ _ => exact ⟨rfl, rfl⟩

/-- C45: the tool runs the selected command on the files of the selected paths, in order,
and reports exactly the paths that are neither directories nor readable files. Without
paths it takes the current directory. -/
theorem C45_runs (before : Byte) (fs : Fs) (prog : Bytes) (args paths : List Bytes) (c : Command)
    (h : Selects args c paths) :
    let p := plan before fs (prog :: args)
    p.command = c ∧
    p.files = (if paths = [] then currentDirectory fs else paths.flatMap (filesOf fs)).map
      (SourceFile.new before) ∧
    p.bad = paths.filter (isBad fs) := by
  have hdir : addDir before fs [] [chDot] = (currentDirectory fs).map (SourceFile.new before) := by
    unfold addDir currentDirectory
    cases fs.openDir [chDot] with
    | none => rfl
    | some es => simp [listAddDirectory, listAdd_fold]
  cases h with
  | none =>
    simp [plan, addPaths, hdir]
  | option a name c ps hm ha =>
    have hf := commandFromFlag_some a name c hm ha
    cases paths with
    | nil => simp [plan, hf, addPaths, hdir]
    | cons p ps => simp [plan, hf, addPaths_eq]
  | paths a ps hno =>
    have hf := commandFromFlag_none a hno
    simp [plan, hf, addPaths_eq]

/-- Non-vacuity: `ohcount -d x y`, where `x` is a file and `y` does not exist. -/
example : Selects ["-d".toUTF8.toList, [120], [121]] .detect [[120], [121]] :=
  .option _ "-d" .detect _ (by decide) rfl

example : let p := plan 0 ⟨fun _ => none, fun a => a == [120]⟩ [[111], "-d".toUTF8.toList, [120], [121]]
    p.command = .detect ∧ p.files.map SourceFile.filepath = [[120]] ∧ p.bad = [[121]] := by
  decide +kernel

/-! ### C58: the detect action -/

/-- C58: `ohcount --detect` on the given paths prints one line for each path, in order: the answer of a language query on
a new source file of that path, and the path. -/
theorem C58_detect (env : Env) (before : Byte) (disk : Disk) (paths : List Bytes) :
    (detect env disk (paths.map (SourceFile.new before))).map (·.2) = paths ∧
    ∀ x ∈ detect env disk (paths.map (SourceFile.new before)),
      (run env ⟨SourceFile.new before x.2, disk⟩ [.getLanguage]).map (·.2) = some [.language x.1] := by
  refine ⟨by simp only [detect, List.map_map]; exact List.map_id _, ?_⟩
  intro x hx
  unfold detect at hx
  rw [List.map_map] at hx
  obtain ⟨p, -, rfl⟩ := List.mem_map.mp hx
  rfl

example : detect SourceFileProps.sampleEnv (fun _ => none) ([[97], [98]].map (SourceFile.new 0)) =
    [(some "c", [97]), (some "c", [98])] := by decide +kernel

/-! ### C49: the annotate action -/

/-- C49, the full statement: for every report on a range of the contents without NUL, the
annotation prints exactly that text, within the bounds of its buffer. -/
def C49_full : Prop :=
  ∀ (junk : Byte) (contents : Bytes) (r : Report), 0 ≤ r.s → r.s ≤ r.e → r.e ≤ contents.length →
    (0 : Byte) ∉ contents →
    ∃ buf, annotateCallback junk contents r = some buf ∧
      buf.takeWhile (fun b => b != 0) = (contents.drop r.s.toNat).take (r.e - r.s).toNat

/-- C49, the part before the terminator is stored: the buffer holds exactly the text of
the range. Missing: the terminator has no place in it, see `C49_always_overruns`. -/
theorem C49_text_partial (junk : Byte) (contents : Bytes) (r : Report) (h0 : 0 ≤ r.s)
    (h1 : r.s ≤ r.e) (h2 : r.e ≤ contents.length) (hz : (0 : Byte) ∉ contents) :
    storeAll (List.replicate (r.e - r.s).toNat junk) 0
      (strncpyBytes (contents.drop r.s.toNat) (r.e - r.s).toNat) =
    some ((contents.drop r.s.toNat).take (r.e - r.s).toNat) := by
  have key : ∀ (n : Nat) (l : Bytes), n ≤ l.length → (0 : Byte) ∉ l → strncpyBytes l n = l.take n := by
    intro n
    induction n with
    | zero => intro l _ _; simp [strncpyBytes]
    | succ n ih =>
      intro l hl hz
      cases l with
      | nil => simp at hl
      | cons b l =>
        have hb : b ≠ 0 := fun e => hz (by simp [e])
        rw [strncpyBytes, if_neg hb, List.take_succ_cons, ih l (by simpa using hl)
          (fun h => hz (List.mem_cons_of_mem _ h))]
  rw [key _ _ (by rw [List.length_drop]; omega) (fun h => hz (List.mem_of_mem_drop h)),
    ParsedLanguageProps.storeAll_eq _ _ _ (by simp; omega)]
  have : ((contents.drop r.s.toNat).take (r.e - r.s).toNat).length = (r.e - r.s).toNat := by
    rw [List.length_take, List.length_drop]; omega
  simp [this]

example : storeAll (List.replicate (4 - 1) 0) 0 (strncpyBytes ([120, 121, 122, 10].drop 1) 3) =
    some [121, 122, 10] := by decide +kernel

/-- C49: the terminator of every annotated line is stored outside of the buffer. -/
theorem C49_always_overruns (junk : Byte) (contents : Bytes) (r : Report) :
    annotateCallback junk contents r = none := by
  unfold annotateCallback
  simp only
  cases h : storeAll (List.replicate (r.e - r.s).toNat junk) 0
      (strncpyBytes (contents.drop r.s.toNat) (r.e - r.s).toNat) with
  | none => rfl
  | some buf =>
    simp only [Option.bind_some]
    have hl : buf.length = (r.e - r.s).toNat := by
      rw [ParsedLanguageProps.storeAll_eq _ _ _ (by
        rw [ParsedLanguageProps.strncpyBytes_length]; simp)] at h
      cases h
      simp [ParsedLanguageProps.strncpyBytes_length]
    unfold store
    rw [if_neg (by omega)]

theorem C49_negation : ¬ C49_full := by
  intro h
  obtain ⟨buf, e, _⟩ := h 0 [120, 10] ⟨"c", .lcode, 0, 2⟩ (by decide) (by decide) (by decide) (by decide)
  rw [C49_always_overruns] at e
  cases e

end Ohcount.CliProps
