import Verif.GestaltCalc
/-
The outcome of `analyze` in terms of the specification.
-/

namespace Ohcount.Gestalt

mutual
theorem refs_mapFile (g : FileRule → FileRule) : (r : Rule) → (r.mapFile g).refs = r.refs
  | .or rs => by simp only [Rule.mapFile, Rule.refs, refs_mapFiles g rs]
  | .and rs => by simp only [Rule.mapFile, Rule.refs, refs_mapFiles g rs]
  | .not rs => by simp only [Rule.mapFile, Rule.refs, refs_mapFiles g rs]
  | .gestalt _ _ => by simp only [Rule.mapFile]
  | .language _ _ => by simp only [Rule.mapFile]
  | .file _ => by simp only [Rule.mapFile, Rule.refs]
theorem refs_mapFiles (g : FileRule → FileRule) : (rs : List Rule) → allRefs (mapFiles g rs) = allRefs rs
  | [] => by simp only [mapFiles]
  | r :: rs => by simp only [mapFiles, allRefs, refs_mapFile g r, refs_mapFiles g rs]
end

mutual
theorem negRefs_mapFile (g : FileRule → FileRule) : (r : Rule) → (r.mapFile g).negRefs = r.negRefs
  | .or rs => by simp only [Rule.mapFile, Rule.negRefs, negRefs_mapFiles g rs]
  | .and rs => by simp only [Rule.mapFile, Rule.negRefs, negRefs_mapFiles g rs]
  | .not rs => by simp only [Rule.mapFile, Rule.negRefs, refs_mapFiles g rs]
  | .gestalt _ _ => by simp only [Rule.mapFile]
  | .language _ _ => by simp only [Rule.mapFile]
  | .file _ => by simp only [Rule.mapFile, Rule.negRefs]
theorem negRefs_mapFiles (g : FileRule → FileRule) : (rs : List Rule) → allNegRefs (mapFiles g rs) = allNegRefs rs
  | [] => by simp only [mapFiles]
  | r :: rs => by simp only [mapFiles, allNegRefs, negRefs_mapFile g r, negRefs_mapFiles g rs]
end

theorem key_after (R : Ruby) (files : List Source) (d : Definition) : (d.after R files).key = d.key := rfl

theorem ordered_after (R : Ruby) (files : List Source) (U late : List Key) (ds : List Definition) :
    ordered U late (ds.map (·.after R files)) = ordered U late ds := by
  induction ds generalizing U late with
  | nil => rfl
  | cons d ds ih =>
    have h1 : allRefs (d.after R files).rules = allRefs d.rules := refs_mapFiles _ _
    have h2 : allNegRefs (d.after R files).rules = allNegRefs d.rules := negRefs_mapFiles _ _
    have h3 : ((ds.map (·.after R files)).all fun e => e.key != d.key) = ds.all fun e => e.key != d.key := by
      rw [List.all_map]; rfl
    rw [List.map_cons, ordered, ordered, h1, h2, key_after, h3, ih, ih]

/-- `analyze` in two steps. -/
theorem analyze_eq (R : Ruby) (defs : List Definition) (files : List Source) :
    analyze R defs files = if files.all (fun f => okDefs R f defs) then
      (calcLoop (files.foldl countLanguages []) 0 [] (defs.map (·.after R files))).map (·.1) else none := by
  unfold analyze
  rw [processFiles_eq]
  cases files.all fun f => okDefs R f defs with
  | false => rfl
  | true =>
    rw [if_pos rfl, if_pos rfl]
    show (Engine.calc _).bind _ = _
    unfold Engine.calc
    dsimp only
    cases calcLoop (files.foldl countLanguages []) 0 [] (defs.map (·.after R files)) <;> rfl

theorem fires_iff (R : Ruby) (files : List Source) (gs : List Gestalt) {d : Definition} (h : allFresh d.rules = true) :
    (d.after R files).fires (files.foldl countLanguages []) gs = true ↔ OneOf R files (Found gs) d.rules := by
  unfold Definition.fires Definition.after
  rw [some_iff R files (hasGestalt gs) d.rules h]
  have : (fun t n => hasGestalt gs t n = true) = Found gs := by
    funext t n; exact propext (hasGestalt_iff gs t n)
  rw [this]

/-- A list of definitions as it is written: nothing has been counted yet, and no gestalt is named after a file. -/
def Plain (defs : List Definition) : Prop := ∀ d ∈ defs, allFresh d.rules = true ∧ allNameless d.rules = true

theorem perm_map_inv {α β : Type} {f : α → β} {l' : List β} {defs : List α} (h : l'.Perm (defs.map f)) : ∃ l : List α, l.Perm defs ∧ l' = l.map f := by
  induction defs generalizing l' with
  | nil => exact ⟨[], .refl _, by simpa using h⟩
  | cons d ds ih =>
    have hd : f d ∈ l' := h.symm.subset (by simp)
    obtain ⟨s, t, rfl⟩ := List.append_of_mem hd
    have h' : (s ++ t).Perm (ds.map f) := by
      have := (List.perm_middle.symm.trans h)
      simpa using this.cons_inv
    obtain ⟨l, hl, he⟩ := ih h'
    obtain ⟨a, b, rfl, rfl, rfl⟩ := List.append_eq_map_iff.1 he
    exact ⟨a ++ d :: b, List.perm_middle.trans (hl.cons d), by simp⟩

/-- Which definitions make up the result. -/
theorem analyze_found {R : Ruby} {defs : List Definition} {files : List Source} {gs : List Gestalt} (hp : Plain defs)
    (ho : ordered [] [] defs = true) (h : analyze R defs files = some gs) :
    ∃ fired left : List Definition, (fired ++ left).Perm defs ∧ gs = fired.map (·.gestalt) ∧ (∀ d ∈ fired, OneOf R files (Found gs) d.rules) ∧
      ∀ d ∈ left, ¬ OneOf R files (Found gs) d.rules := by
  rw [analyze_eq] at h
  split at h
  · have hn : ∀ d ∈ defs.map (·.after R files), allNameless d.rules = true := by
      intro d hd
      obtain ⟨e, he, rfl⟩ := List.mem_map.1 hd
      show allNameless (mapFiles _ _) = true
      rw [nameless_mapFiles (keeps_after R files)]
      exact (hp e he).2
    obtain ⟨fired, left, h1, h2, h3, h4⟩ := calc_ok (c := files.foldl countLanguages []) (ds := defs.map (·.after R files)) (by rw [ordered_after]; exact ho) hn
    rw [h1, Option.map_some, Option.some.injEq] at h
    dsimp only at h
    -- pull the permutation back through `map`
    obtain ⟨l, hl1, hl2⟩ : ∃ l : List Definition, l.Perm defs ∧ fired ++ left = l.map (·.after R files) := perm_map_inv h2
    obtain ⟨a, b, rfl, ha, hb⟩ := List.append_eq_map_iff.1 hl2
    have hgs : gs = a.map (·.gestalt) := by rw [← h, ← ha, List.map_map]; rfl
    have hin : ∀ d ∈ a ++ b, allFresh d.rules = true := fun d hd => (hp d (hl1.subset hd)).1
    refine ⟨a, b, hl1, hgs, ?_, ?_⟩
    · intro d hd
      have := h3 (d.after R files) (by rw [← ha]; exact List.mem_map_of_mem hd)
      rw [h] at this
      exact (fires_iff R files gs (hin d (List.mem_append_left _ hd))).1 this
    · intro d hd hh
      have := h4 (d.after R files) (by rw [← hb]; exact List.mem_map_of_mem hd)
      rw [h, (fires_iff R files gs (hin d (List.mem_append_right _ hd))).2 hh] at this
      cases this
  · cases h

theorem found_iff {fired left defs : List Definition} (hp : (fired ++ left).Perm defs) {P : Definition → Prop} (h1 : ∀ d ∈ fired, P d)
    (h2 : ∀ d ∈ left, ¬ P d) (t n : String) :
    Found (fired.map (·.gestalt)) t n ↔ ∃ d ∈ defs, d.type = t ∧ d.name = n ∧ P d := by
  constructor
  · rintro ⟨g, hg, rfl, rfl⟩
    obtain ⟨d, hd, rfl⟩ := List.mem_map.1 hg
    exact ⟨d, hp.subset (List.mem_append_left _ hd), rfl, rfl, h1 d hd⟩
  · rintro ⟨d, hd, rfl, rfl, h⟩
    rcases List.mem_append.1 (hp.symm.subset hd) with hd | hd
    · exact ⟨d.gestalt, List.mem_map_of_mem hd, rfl, rfl⟩
    · exact absurd h (h2 d hd)

theorem analyze_agrees {R : Ruby} {defs : List Definition} {files : List Source} {gs : List Gestalt} (hp : Plain defs)
    (ho : ordered [] [] defs = true) (h : analyze R defs files = some gs) : Agrees R defs files (Found gs) := by
  obtain ⟨fired, left, h1, h2, h3, h4⟩ := analyze_found hp ho h
  intro t n
  have := found_iff h1 (P := fun d => OneOf R files (Found gs) d.rules) h3 h4 t n
  rw [← h2] at this
  exact this

/-! ### Only one set of gestalts agrees -/

mutual
theorem holds_congr {R : Ruby} {files : List Source} {S T : String → String → Prop} : (r : Rule) → (∀ k ∈ r.refs, (S k.1 k.2 ↔ T k.1 k.2)) →
    (Holds R files S r ↔ Holds R files T r)
  | .or rs, h => by rw [Holds, Holds]; rw [Rule.refs] at h; exact oneOf_congr rs h
  | .and rs, h => by rw [Holds, Holds]; rw [Rule.refs] at h; exact every_congr rs h
  | .not [], _ => by rw [Holds, Holds]
  | .not (r :: rs), h => by
    rw [Rule.refs, allRefs] at h
    rw [Holds, Holds, holds_congr r fun k hk => h k (List.mem_append_left _ hk)]
  | .gestalt t n, h => by
    rw [Rule.refs] at h
    rw [Holds, Holds]
    exact h (t, n) (List.mem_singleton.2 rfl)
  | .language _ _, _ => by rw [Holds, Holds]
  | .file _, _ => by rw [Holds, Holds]
theorem oneOf_congr {R : Ruby} {files : List Source} {S T : String → String → Prop} : (rs : List Rule) → (∀ k ∈ allRefs rs, (S k.1 k.2 ↔ T k.1 k.2)) →
    (OneOf R files S rs ↔ OneOf R files T rs)
  | [], _ => by rw [OneOf, OneOf]
  | r :: rs, h => by
    rw [allRefs] at h
    rw [OneOf, OneOf, holds_congr r fun k hk => h k (List.mem_append_left _ hk), oneOf_congr rs fun k hk => h k (List.mem_append_right _ hk)]
theorem every_congr {R : Ruby} {files : List Source} {S T : String → String → Prop} : (rs : List Rule) → (∀ k ∈ allRefs rs, (S k.1 k.2 ↔ T k.1 k.2)) →
    (Every R files S rs ↔ Every R files T rs)
  | [], _ => by rw [Every, Every]
  | r :: rs, h => by
    rw [allRefs] at h
    rw [Every, Every, holds_congr r fun k hk => h k (List.mem_append_left _ hk), every_congr rs fun k hk => h k (List.mem_append_right _ hk)]
end

/-- No definition looks at itself, directly or through others: every gestalt it looks at and that is defined comes before it in the list `L`. -/
def ranked (L : List Key) (defs : List Definition) : Bool :=
  defs.all fun d => (allRefs d.rules).all fun k => !(defs.any fun e => e.key == k) || decide (L.idxOf k < L.idxOf d.key)

theorem agrees_unique {R : Ruby} {L : List Key} {defs : List Definition} {files : List Source} (hr : ranked L defs = true)
    {S T : String → String → Prop} (hS : Agrees R defs files S) (hT : Agrees R defs files T) : ∀ t n, S t n ↔ T t n := by
  have key : ∀ m t n, L.idxOf (t, n) < m → (S t n ↔ T t n) := by
    intro m
    induction m with
    | zero => intro t n h; omega
    | succ m ih =>
      intro t n hm
      rw [hS t n, hT t n]
      refine exists_congr fun d => and_congr_right fun hd => and_congr_right fun h1 => and_congr_right fun h2 => oneOf_congr _ fun k hk => ?_
      have hk' := List.all_eq_true.1 (List.all_eq_true.1 hr d hd) k hk
      rw [Bool.or_eq_true, Bool.not_eq_true', ← Bool.not_eq_true, List.any_eq_true, decide_eq_true_eq] at hk'
      rcases hk' with hk' | hk'
      · have hno : ∀ S, Agrees R defs files S → ¬ S k.1 k.2 := by
          intro S hS hs
          obtain ⟨e, he, h3, h4, -⟩ := (hS k.1 k.2).1 hs
          exact hk' ⟨e, he, by simp [Definition.key, h3, h4]⟩
        exact ⟨fun h => absurd h (hno S hS), fun h => absurd h (hno T hT)⟩
      · apply ih
        have : d.key = (t, n) := by rw [← h1, ← h2]; rfl
        rw [this] at hk'
        show L.idxOf k < m
        omega
  exact fun t n => key _ t n (Nat.lt_succ_self _)

/-! ### The order of the files -/

theorem parts_perm {files files' : List Source} (h : files.Perm files') : (parts files).Perm (parts files') := h.flatMap_right _

theorem sum_perm {l l' : List Nat} (h : l.Perm l') : l.sum = l'.sum := h.sum_nat

theorem share_perm {files files' : List Source} (h : files.Perm files') (l : String) (m : Nat) : Share files l m ↔ Share files' l m := by
  have hp := parts_perm h
  have h1 : codeOf files l = codeOf files' l := sum_perm ((hp.filter _).map _)
  have h2 : codeAll files = codeAll files' := sum_perm ((hp.filter _).map _)
  unfold Share
  rw [h1, h2]
  simp only [hp.mem_iff]

theorem passes_perm (R : Ruby) {files files' : List Source} (h : files.Perm files') (m : Nat) (t : Test) :
    Passes R files m t ↔ Passes R files' m t := by
  have h1 : hitsIn R files t = hitsIn R files' t := sum_perm (h.map _)
  unfold Passes
  cases t <;> simp only [h1, h.mem_iff]

mutual
theorem holds_perm {R : Ruby} {files files' : List Source} (h : files.Perm files') (S : String → String → Prop) : (r : Rule) →
    (Holds R files S r ↔ Holds R files' S r)
  | .or rs => by rw [Holds, Holds]; exact oneOf_perm h S rs
  | .and rs => by rw [Holds, Holds]; exact every_perm h S rs
  | .not [] => by rw [Holds, Holds]
  | .not (r :: rs) => by rw [Holds, Holds, holds_perm h S r]
  | .gestalt t n => by rw [Holds, Holds]
  | .language l m => by rw [Holds, Holds]; exact share_perm h l m
  | .file r => by rw [Holds, Holds]; exact passes_perm R h _ _
theorem oneOf_perm {R : Ruby} {files files' : List Source} (h : files.Perm files') (S : String → String → Prop) : (rs : List Rule) →
    (OneOf R files S rs ↔ OneOf R files' S rs)
  | [] => by rw [OneOf, OneOf]
  | r :: rs => by rw [OneOf, OneOf, holds_perm h S r, oneOf_perm h S rs]
theorem every_perm {R : Ruby} {files files' : List Source} (h : files.Perm files') (S : String → String → Prop) : (rs : List Rule) →
    (Every R files S rs ↔ Every R files' S rs)
  | [] => by rw [Every, Every]
  | r :: rs => by rw [Every, Every, holds_perm h S r, every_perm h S rs]
end

/-- Two projects of which the definitions say the same. -/
def Alike (R : Ruby) (defs : List Definition) (files files' : List Source) : Prop :=
  ∀ d ∈ defs, ∀ gs, (d.after R files).fires (files.foldl countLanguages []) gs = (d.after R files').fires (files'.foldl countLanguages []) gs

theorem alike_cons {R : Ruby} {d : Definition} {defs : List Definition} {files files' : List Source} (h : Alike R (d :: defs) files files') :
    Alike R defs files files' := fun e he => h e (List.mem_cons_of_mem _ he)

theorem pass_alike {R : Ruby} {files files' : List Source} (defs : List Definition) (h : Alike R defs files files') (hn : ∀ d ∈ defs, allNameless d.rules = true)
    (gs : List Gestalt) : ∃ (gs' : List Gestalt) (kept : List Definition), (∀ d ∈ kept, d ∈ defs) ∧ pass (files.foldl countLanguages []) gs (defs.map (·.after R files)) = (gs', kept.map (·.after R files)) ∧
      pass (files'.foldl countLanguages []) gs (defs.map (·.after R files')) = (gs', kept.map (·.after R files')) := by
  induction defs generalizing gs with
  | nil => exact ⟨gs, [], by simp, rfl, rfl⟩
  | cons d ds ih =>
    have hd := h d List.mem_cons_self gs
    have hn1 : ∀ fs, allNameless (d.after R fs).rules = true := fun fs => by
      show allNameless (mapFiles _ _) = true
      rw [nameless_mapFiles (keeps_after R fs)]; exact hn d List.mem_cons_self
    have ih := ih (alike_cons h) fun e he => hn e (List.mem_cons_of_mem _ he)
    rw [List.map_cons, List.map_cons, pass_cons, pass_cons, ← hd]
    cases hf : (d.after R files).fires (files.foldl countLanguages []) gs with
    | true =>
      rw [if_pos rfl, if_pos rfl, gestalts_eq (hn1 files) hf, gestalts_eq (hn1 files') (hd ▸ hf)]
      obtain ⟨gs', kept, h1, h2, h3⟩ := ih (gs ++ [d.gestalt])
      exact ⟨gs', kept, fun e he => List.mem_cons_of_mem _ (h1 e he), h2, h3⟩
    | false =>
      rw [if_neg (by simp), if_neg (by simp)]
      obtain ⟨gs', kept, h1, h2, h3⟩ := ih gs
      refine ⟨gs', d :: kept, ?_, by rw [h2]; rfl, by rw [h3]; rfl⟩
      intro e he
      rcases List.mem_cons.1 he with rfl | he
      · exact List.mem_cons_self
      · exact List.mem_cons_of_mem _ (h1 e he)

theorem calcLoop_alike {R : Ruby} {files files' : List Source} (n : Nat) : ∀ (defs : List Definition) (count : Nat) (gs : List Gestalt),
    2 * defs.length + (if count = gs.length then 0 else 1) ≤ n → Alike R defs files files' → (∀ d ∈ defs, allNameless d.rules = true) →
    (calcLoop (files.foldl countLanguages []) count gs (defs.map (·.after R files))).map (·.1) =
      (calcLoop (files'.foldl countLanguages []) count gs (defs.map (·.after R files'))).map (·.1) := by
  induction n with
  | zero =>
    intro defs count gs hl h hn
    have h0 : defs = [] := List.length_eq_zero_iff.1 (by omega)
    subst h0
    have : count = gs.length := by
      refine Classical.byContradiction fun hc => ?_
      rw [if_neg hc] at hl; omega
    rw [calcLoop_eq, calcLoop_eq (files'.foldl countLanguages [])]
    simp [pass, this]
  | succ n ih =>
    intro defs count gs hl h hn
    obtain ⟨gs', kept, h1, h2, h3⟩ := pass_alike defs h hn gs
    have hlen := pass_length (files.foldl countLanguages []) gs (defs.map (·.after R files))
    rw [h2, List.length_map, List.length_map] at hlen
    dsimp only at hlen
    rw [calcLoop_eq, calcLoop_eq (files'.foldl countLanguages []), h2, h3]
    dsimp only
    by_cases hc : count = gs'.length
    · rw [if_pos hc, if_pos hc]; rfl
    · rw [if_neg hc, if_neg hc]
      refine ih kept gs'.length gs' ?_ (fun d hd => h d (h1 d hd)) fun d hd => hn d (h1 d hd)
      rw [if_pos rfl]
      by_cases hg : gs.length < gs'.length
      · have := hlen.2.2.2.2 hg
        omega
      · have : gs'.length = gs.length := by omega
        rw [if_neg (by omega)] at hl
        omega

theorem analyze_perm (R : Ruby) {defs : List Definition} (hp : Plain defs) {files files' : List Source} (h : files.Perm files') :
    analyze R defs files = analyze R defs files' := by
  rw [analyze_eq, analyze_eq]
  have h1 : (files.all fun f => okDefs R f defs) = files'.all fun f => okDefs R f defs := by
    rw [Bool.eq_iff_iff, List.all_eq_true, List.all_eq_true]
    simp only [h.mem_iff]
  rw [h1]
  split
  · refine calcLoop_alike _ defs 0 [] (Nat.le_refl _) ?_ fun d hd => (hp d hd).2
    intro d hd gs
    rw [Bool.eq_iff_iff, fires_iff R files gs (hp d hd).1, fires_iff R files' gs (hp d hd).1]
    exact oneOf_perm h _ _
  · rfl

end Ohcount.Gestalt
