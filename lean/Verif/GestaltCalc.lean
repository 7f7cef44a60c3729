import Verif.GestaltSpec
/-
`calc_gestalts`: the loop ends, and what it has found.
-/

namespace Ohcount.Gestalt

/-- Type and name of a gestalt. -/
abbrev Key := String × String

def Definition.key (d : Definition) : Key := (d.type, d.name)

mutual
/-- The gestalts that the rule looks at. -/
def Rule.refs : Rule → List Key
  | .or rs => allRefs rs
  | .and rs => allRefs rs
  | .not rs => allRefs rs
  | .gestalt t n => [(t, n)]
  | .language _ _ => []
  | .file _ => []
def allRefs : List Rule → List Key
  | [] => []
  | r :: rs => r.refs ++ allRefs rs
/-- The gestalts that the rule looks at below a `not`. -/
def Rule.negRefs : Rule → List Key
  | .or rs => allNegRefs rs
  | .and rs => allNegRefs rs
  | .not rs => allRefs rs
  | .gestalt _ _ => []
  | .language _ _ => []
  | .file _ => []
def allNegRefs : List Rule → List Key
  | [] => []
  | r :: rs => r.negRefs ++ allNegRefs rs
end

/-- `S` and `T` have the same gestalts of the list. -/
def AgreeOn (U : List Key) (S T : String → String → Bool) : Prop := ∀ k ∈ U, S k.1 k.2 = T k.1 k.2

/-- `T` has the gestalts of `S`. -/
def Below (S T : String → String → Bool) : Prop := ∀ t n, S t n = true → T t n = true

mutual
theorem val_congr (c : Counts) {U : List Key} {S T : String → String → Bool} (h : AgreeOn U S T) : (r : Rule) → r.refs ⊆ U → r.val c S = r.val c T
  | .or rs, hr => by rw [Rule.val, Rule.val]; rw [Rule.refs] at hr; exact anyVal_congr c h rs hr
  | .and rs, hr => by rw [Rule.val, Rule.val]; rw [Rule.refs] at hr; exact allVal_congr c h rs hr
  | .not [], _ => by rw [Rule.val, Rule.val]
  | .not (r :: rs), hr => by
    rw [Rule.refs, allRefs] at hr
    rw [Rule.val, Rule.val, val_congr c h r fun x hx => hr (List.mem_append_left _ hx)]
  | .gestalt t n, hr => by
    rw [Rule.refs] at hr
    rw [Rule.val, Rule.val]
    exact h (t, n) (hr (List.mem_singleton.2 rfl))
  | .language l m, _ => by rw [Rule.val, Rule.val]
  | .file r, _ => by rw [Rule.val, Rule.val]
theorem anyVal_congr (c : Counts) {U : List Key} {S T : String → String → Bool} (h : AgreeOn U S T) : (rs : List Rule) → allRefs rs ⊆ U →
    anyVal c S rs = anyVal c T rs
  | [], _ => by rw [anyVal, anyVal]
  | r :: rs, hr => by
    rw [allRefs] at hr
    rw [anyVal, anyVal, val_congr c h r fun x hx => hr (List.mem_append_left _ hx),
      anyVal_congr c h rs fun x hx => hr (List.mem_append_right _ hx)]
theorem allVal_congr (c : Counts) {U : List Key} {S T : String → String → Bool} (h : AgreeOn U S T) : (rs : List Rule) → allRefs rs ⊆ U →
    allVal c S rs = allVal c T rs
  | [], _ => by rw [allVal, allVal]
  | r :: rs, hr => by
    rw [allRefs] at hr
    rw [allVal, allVal, val_congr c h r fun x hx => hr (List.mem_append_left _ hx),
      allVal_congr c h rs fun x hx => hr (List.mem_append_right _ hx)]
end

mutual
theorem val_mono (c : Counts) {U : List Key} {S T : String → String → Bool} (h : AgreeOn U S T) (hb : Below S T) : (r : Rule) → r.negRefs ⊆ U →
    r.val c S = true → r.val c T = true
  | .or rs, hr => by rw [Rule.val, Rule.val]; rw [Rule.negRefs] at hr; exact anyVal_mono c h hb rs hr
  | .and rs, hr => by rw [Rule.val, Rule.val]; rw [Rule.negRefs] at hr; exact allVal_mono c h hb rs hr
  | .not [], _ => by rw [Rule.val, Rule.val]; exact id
  | .not (r :: rs), hr => by
    rw [Rule.negRefs, allRefs] at hr
    rw [Rule.val, Rule.val, val_congr c h r fun x hx => hr (List.mem_append_left _ hx)]
    exact id
  | .gestalt t n, _ => by rw [Rule.val, Rule.val]; exact hb t n
  | .language l m, _ => by rw [Rule.val, Rule.val]; exact id
  | .file r, _ => by rw [Rule.val, Rule.val]; exact id
theorem anyVal_mono (c : Counts) {U : List Key} {S T : String → String → Bool} (h : AgreeOn U S T) (hb : Below S T) : (rs : List Rule) →
    allNegRefs rs ⊆ U → anyVal c S rs = true → anyVal c T rs = true
  | [], _ => by rw [anyVal, anyVal]; exact id
  | r :: rs, hr => by
    rw [allNegRefs] at hr
    rw [anyVal, anyVal, Bool.or_eq_true, Bool.or_eq_true]
    exact Or.imp (val_mono c h hb r fun x hx => hr (List.mem_append_left _ hx)) (anyVal_mono c h hb rs fun x hx => hr (List.mem_append_right _ hx))
theorem allVal_mono (c : Counts) {U : List Key} {S T : String → String → Bool} (h : AgreeOn U S T) (hb : Below S T) : (rs : List Rule) →
    allNegRefs rs ⊆ U → allVal c S rs = true → allVal c T rs = true
  | [], _ => by rw [allVal, allVal]; exact id
  | r :: rs, hr => by
    rw [allNegRefs] at hr
    rw [allVal, allVal, Bool.and_eq_true, Bool.and_eq_true]
    exact And.imp (val_mono c h hb r fun x hx => hr (List.mem_append_left _ hx)) (allVal_mono c h hb rs fun x hx => hr (List.mem_append_right _ hx))
end

/-! ### One pass -/

/-- The definition has triggers. -/
def Definition.fires (c : Counts) (gs : List Gestalt) (d : Definition) : Bool := anyVal c (hasGestalt gs) d.rules

/-- The gestalt of a definition whose triggers have no names. -/
def Definition.gestalt (d : Definition) : Gestalt := ⟨d.type, d.name, 1⟩

theorem gestalts_isEmpty (c : Counts) (gs : List Gestalt) (d : Definition) : (d.gestalts c gs).isEmpty = !d.fires c gs := by
  unfold Definition.gestalts Definition.fires
  rw [List.isEmpty_map, any_eq]

theorem gestalts_eq {c : Counts} {gs : List Gestalt} {d : Definition} (hd : allNameless d.rules = true) (hf : d.fires c gs = true) :
    d.gestalts c gs = [d.gestalt] := by
  have h := any_eq c gs d.rules
  have h' := nameless_first c gs d.rules hd
  unfold Definition.fires at hf
  rw [hf] at h
  rw [h] at h'
  unfold Definition.gestalts
  rw [h']
  rfl

theorem pass_cons (c : Counts) (gs : List Gestalt) (d : Definition) (ds : List Definition) :
    pass c gs (d :: ds) = if d.fires c gs then pass c (gs ++ d.gestalts c gs) ds else ((pass c gs ds).1, d :: (pass c gs ds).2) := by
  rw [pass, gestalts_isEmpty]
  cases d.fires c gs <;> rfl

theorem hasGestalt_append (gs : List Gestalt) (g : Gestalt) (t n : String) :
    hasGestalt (gs ++ [g]) t n = (hasGestalt gs t n || (g.type == t && g.name == n)) := by
  simp [hasGestalt]

theorem below_append (gs : List Gestalt) (g : Gestalt) : Below (hasGestalt gs) (hasGestalt (gs ++ [g])) := by
  intro t n h
  rw [hasGestalt_append, h]; rfl

theorem agree_append {U : List Key} (gs : List Gestalt) {d : Definition} (h : d.key ∉ U) : AgreeOn U (hasGestalt gs) (hasGestalt (gs ++ [d.gestalt])) := by
  intro k hk
  rw [hasGestalt_append]
  have : (d.gestalt.type == k.1 && d.gestalt.name == k.2) = false := by
    rw [← Bool.not_eq_true, Bool.and_eq_true, beq_iff_eq, beq_iff_eq]
    rintro ⟨h1, h2⟩
    apply h
    have : d.key = k := Prod.ext h1 h2
    rwa [this]
  rw [this, Bool.or_false]

/-- What is known between two steps: `fired` are the definitions that had triggers, `ds` the others; `U` are gestalts whose presence is settled. -/
structure Inv (c : Counts) (U : List Key) (gs : List Gestalt) (fired ds : List Definition) : Prop where
  found : gs = fired.map (·.gestalt)
  firedHold : ∀ d ∈ fired, allNegRefs d.rules ⊆ U ∧ d.fires c gs = true
  settled : ∀ d ∈ ds, d.key ∈ U → allRefs d.rules ⊆ U ∧ d.fires c gs = false

theorem Inv.fire {c : Counts} {U : List Key} {gs : List Gestalt} {fired ds : List Definition} (h : Inv c U gs fired ds) {d : Definition}
    (hd : d.fires c gs = true) (hn : allNegRefs d.rules ⊆ U) (hu : d.key ∉ U) : Inv c U (gs ++ [d.gestalt]) (fired ++ [d]) ds := by
  have ha := agree_append gs hu
  have hb := below_append gs d.gestalt
  refine ⟨by rw [List.map_append, h.found]; rfl, ?_, ?_⟩
  · intro e he
    rcases List.mem_append.1 he with he | he
    · exact ⟨(h.firedHold e he).1, anyVal_mono c ha hb e.rules (h.firedHold e he).1 (h.firedHold e he).2⟩
    · rw [List.mem_singleton.1 he]
      exact ⟨hn, anyVal_mono c ha hb d.rules hn hd⟩
  · intro e he hk
    refine ⟨(h.settled e he hk).1, ?_⟩
    have := anyVal_congr c ha e.rules (h.settled e he hk).1
    unfold Definition.fires
    rw [← this]
    exact (h.settled e he hk).2

theorem Inv.sub {c : Counts} {U : List Key} {gs : List Gestalt} {fired ds ds' : List Definition} (h : Inv c U gs fired ds)
    (hs : ∀ d ∈ ds', d ∈ ds) : Inv c U gs fired ds' := ⟨h.found, h.firedHold, fun d hd => h.settled d (hs d hd)⟩

/-- A pass with settled gestalts. -/
theorem pass_inv {c : Counts} {U : List Key} (ds kept : List Definition) {gs : List Gestalt} {fired : List Definition}
    (h : Inv c U gs fired (kept ++ ds)) (hn : ∀ d ∈ ds, allNameless d.rules = true ∧ allNegRefs d.rules ⊆ U) :
    ∃ more, (fired ++ more ++ (pass c gs ds).2).Perm (fired ++ ds) ∧ Inv c U (pass c gs ds).1 (fired ++ more) (kept ++ (pass c gs ds).2) ∧
      (more = [] → ∀ d ∈ ds, d.fires c gs = false) := by
  induction ds generalizing kept gs fired with
  | nil => exact ⟨[], by simp [pass], by simpa [pass] using h, fun _ => by simp⟩
  | cons d ds ih =>
    rw [pass_cons]
    have hn' : ∀ e ∈ ds, allNameless e.rules = true ∧ allNegRefs e.rules ⊆ U := fun e he => hn e (List.mem_cons_of_mem _ he)
    cases hf : d.fires c gs with
    | true =>
      rw [if_pos rfl, gestalts_eq (hn d List.mem_cons_self).1 hf]
      have hu : d.key ∉ U := fun hu => by
        have := (h.settled d (by simp) hu).2
        rw [hf] at this; cases this
      obtain ⟨more, hp, hi, -⟩ := ih kept ((h.sub (by intro x; simp; rintro (hx | hx) <;> simp [hx])).fire hf (hn d List.mem_cons_self).2 hu) hn'
      refine ⟨d :: more, ?_, ?_, (fun hm => nomatch hm)⟩
      · simpa using hp
      · simpa using hi
    | false =>
      rw [if_neg (by simp)]
      obtain ⟨more, hp, hi, hm⟩ := ih (kept ++ [d]) (by simpa using h) hn'
      refine ⟨more, ?_, ?_, ?_⟩
      · dsimp only
        have h1 : (fired ++ more ++ d :: (pass c gs ds).2).Perm (d :: (fired ++ more ++ (pass c gs ds).2)) := List.perm_middle
        have h2 : (fired ++ d :: ds).Perm (d :: (fired ++ ds)) := List.perm_middle
        exact h1.trans ((hp.cons d).trans h2.symm)
      · simpa using hi
      · intro hm' e he
        rcases List.mem_cons.1 he with rfl | he
        · exact hf
        · exact hm hm' e he

/-- The order of the definitions settles what they look at below a `not`: walking through the list, a definition is settled if it is the only
one of its gestalt and looks at settled gestalts only; what is below a `not` must be settled before. -/
def ordered (U late : List Key) : List Definition → Bool
  | [] => true
  | d :: ds =>
    ((allNegRefs d.rules).all fun k => U.contains k) &&
    if ((allRefs d.rules).all fun k => U.contains k) && !late.contains d.key && ds.all (fun e => e.key != d.key) && !U.contains d.key then
      ordered (d.key :: U) late ds
    else !U.contains d.key && ordered U (d.key :: late) ds

theorem all_contains {l U : List Key} (h : (l.all fun k => U.contains k) = true) : l ⊆ U := by
  intro x hx
  have := List.all_eq_true.1 h x hx
  simpa using this

theorem Inv.grow {c : Counts} {U : List Key} {gs : List Gestalt} {fired ds : List Definition} (h : Inv c U gs fired ds) (k : Key)
    (hk : ∀ d ∈ ds, d.key = k → allRefs d.rules ⊆ U ∧ d.fires c gs = false) : Inv c (k :: U) gs fired ds := by
  refine ⟨h.found, fun d hd => ⟨fun x hx => List.mem_cons_of_mem _ ((h.firedHold d hd).1 hx), (h.firedHold d hd).2⟩, ?_⟩
  intro d hd hu
  have : allRefs d.rules ⊆ U ∧ d.fires c gs = false := by
    rcases List.mem_cons.1 hu with hu | hu
    · exact hk d hd hu
    · exact h.settled d hd hu
  exact ⟨fun x hx => List.mem_cons_of_mem _ (this.1 hx), this.2⟩

/-- The first pass. -/
theorem pass_first {c : Counts} (ds : List Definition) (U late : List Key) (kept : List Definition) {gs : List Gestalt} {fired : List Definition}
    (ho : ordered U late ds = true) (h : Inv c U gs fired (kept ++ ds)) (hk : ∀ d ∈ kept, (d.key ∈ U ∨ d.key ∈ late) ∧ allNegRefs d.rules ⊆ U)
    (hn : ∀ d ∈ ds, allNameless d.rules = true) :
    ∃ more U', (fired ++ more ++ (pass c gs ds).2).Perm (fired ++ ds) ∧ Inv c U' (pass c gs ds).1 (fired ++ more) (kept ++ (pass c gs ds).2) ∧
      (∀ d ∈ kept ++ (pass c gs ds).2, allNegRefs d.rules ⊆ U') ∧ (more = [] → ∀ d ∈ ds, d.fires c gs = false) := by
  induction ds generalizing U late kept gs fired with
  | nil =>
    refine ⟨[], U, by simp [pass], by simpa [pass] using h, ?_, fun _ => by simp⟩
    intro d hd
    exact (hk d (by simpa [pass] using hd)).2
  | cons d ds ih =>
    rw [ordered, Bool.and_eq_true] at ho
    have hneg := all_contains ho.1
    have hn' : ∀ e ∈ ds, allNameless e.rules = true := fun e he => hn e (List.mem_cons_of_mem _ he)
    rw [pass_cons]
    cases hc : ((allRefs d.rules).all fun k => U.contains k) && !late.contains d.key && ds.all (fun e => e.key != d.key) && !U.contains d.key with
    | true =>
      rw [hc, if_pos rfl] at ho
      simp only [Bool.and_eq_true, Bool.not_eq_true', List.all_eq_true, bne_iff_ne] at hc
      obtain ⟨⟨⟨h1, h2⟩, h3⟩, h4⟩ := hc
      have h1 : allRefs d.rules ⊆ U := fun x hx => by simpa using h1 x hx
      have h2 : d.key ∉ late := by simpa using h2
      have h4 : d.key ∉ U := by simpa using h4
      have hkk : ∀ e ∈ kept, e.key ≠ d.key := fun e he hee => by
        rcases (hk e he).1 with h' | h'
        · rw [hee] at h'; exact h4 h'
        · rw [hee] at h'; exact h2 h'
      cases hf : d.fires c gs with
      | true =>
        rw [if_pos rfl, gestalts_eq (hn d List.mem_cons_self) hf]
        have hi := (h.sub (ds' := kept ++ ds) (by intro x; simp; rintro (hx | hx) <;> simp [hx])).fire hf hneg h4
        have hi := hi.grow d.key (by
          intro e he hee
          rcases List.mem_append.1 he with he | he
          · exact absurd hee (hkk e he)
          · exact absurd hee (h3 e he))
        obtain ⟨more, U', hp, hi, hx, -⟩ := ih (d.key :: U) late kept ho.2 hi
          (fun e he => ⟨(hk e he).1.imp (List.mem_cons_of_mem _) id, fun x hx => List.mem_cons_of_mem _ ((hk e he).2 hx)⟩) hn'
        exact ⟨d :: more, U', by simpa using hp, by simpa using hi, hx, (fun hm => nomatch hm)⟩
      | false =>
        rw [if_neg (by simp)]
        have hi : Inv c (d.key :: U) gs fired (kept ++ [d] ++ ds) := (show Inv c U gs fired (kept ++ [d] ++ ds) by simpa using h).grow d.key (by
          intro e he hee
          rcases List.mem_append.1 he with he | he
          · rcases List.mem_append.1 he with he | he
            · exact absurd hee (hkk e he)
            · rw [List.mem_singleton.1 he]; exact ⟨h1, hf⟩
          · exact absurd hee (h3 e he))
        obtain ⟨more, U', hp, hi, hx, hm⟩ := ih (d.key :: U) late (kept ++ [d]) ho.2 hi (by
          intro e he
          rcases List.mem_append.1 he with he | he
          · exact ⟨(hk e he).1.imp (List.mem_cons_of_mem _) id, fun x hx => List.mem_cons_of_mem _ ((hk e he).2 hx)⟩
          · rw [List.mem_singleton.1 he]
            exact ⟨.inl List.mem_cons_self, fun x hx => List.mem_cons_of_mem _ (hneg hx)⟩) hn'
        refine ⟨more, U', ?_, by simpa using hi, by simpa using hx, ?_⟩
        · have h1 : (fired ++ more ++ d :: (pass c gs ds).2).Perm (d :: (fired ++ more ++ (pass c gs ds).2)) := List.perm_middle
          have h2 : (fired ++ d :: ds).Perm (d :: (fired ++ ds)) := List.perm_middle
          exact h1.trans ((hp.cons d).trans h2.symm)
        · intro hm' e he
          rcases List.mem_cons.1 he with rfl | he
          · exact hf
          · exact hm hm' e he
    | false =>
      rw [hc, if_neg (by simp), Bool.and_eq_true] at ho
      have h4 : d.key ∉ U := by have := ho.2.1; simpa using this
      cases hf : d.fires c gs with
      | true =>
        rw [if_pos rfl, gestalts_eq (hn d List.mem_cons_self) hf]
        have hi := (h.sub (ds' := kept ++ ds) (by intro x; simp; rintro (hx | hx) <;> simp [hx])).fire hf hneg h4
        obtain ⟨more, U', hp, hi, hx, -⟩ := ih U (d.key :: late) kept ho.2.2 hi
          (fun e he => ⟨(hk e he).1.imp id (List.mem_cons_of_mem _), (hk e he).2⟩) hn'
        exact ⟨d :: more, U', by simpa using hp, by simpa using hi, hx, (fun hm => nomatch hm)⟩
      | false =>
        rw [if_neg (by simp)]
        obtain ⟨more, U', hp, hi, hx, hm⟩ := ih U (d.key :: late) (kept ++ [d]) ho.2.2 (by simpa using h) (by
          intro e he
          rcases List.mem_append.1 he with he | he
          · exact ⟨(hk e he).1.imp id (List.mem_cons_of_mem _), (hk e he).2⟩
          · rw [List.mem_singleton.1 he]
            exact ⟨.inr List.mem_cons_self, hneg⟩) hn'
        refine ⟨more, U', ?_, by simpa using hi, by simpa using hx, ?_⟩
        · have h1 : (fired ++ more ++ d :: (pass c gs ds).2).Perm (d :: (fired ++ more ++ (pass c gs ds).2)) := List.perm_middle
          have h2 : (fired ++ d :: ds).Perm (d :: (fired ++ ds)) := List.perm_middle
          exact h1.trans ((hp.cons d).trans h2.symm)
        · intro hm' e he
          rcases List.mem_cons.1 he with rfl | he
          · exact hf
          · exact hm hm' e he

/-! ### All passes -/

theorem pass_none {c : Counts} {gs : List Gestalt} {ds : List Definition} (h : ∀ d ∈ ds, d.fires c gs = false) : pass c gs ds = (gs, ds) := by
  induction ds with
  | nil => rfl
  | cons d ds ih =>
    rw [pass_cons, h d List.mem_cons_self, if_neg (by simp), ih fun e he => h e (List.mem_cons_of_mem _ he)]

/-- A pass keeps definitions, and as long as it finds nothing it keeps all of them. -/
theorem pass_length (c : Counts) (gs : List Gestalt) (ds : List Definition) :
    (pass c gs ds).2.length ≤ ds.length ∧ gs.length ≤ (pass c gs ds).1.length ∧
      ((pass c gs ds).2.length = ds.length ∨ gs.length < (pass c gs ds).1.length) ∧
      ((pass c gs ds).1.length ≤ gs.length → ∀ d ∈ ds, d.fires c gs = false) ∧
      (gs.length < (pass c gs ds).1.length → (pass c gs ds).2.length < ds.length) := by
  induction ds generalizing gs with
  | nil => simp [pass]
  | cons d ds ih =>
    rw [pass_cons]
    cases hf : d.fires c gs with
    | true =>
      rw [if_pos rfl]
      have hg : 0 < (d.gestalts c gs).length := by
        have := gestalts_isEmpty c gs d
        rw [hf] at this
        cases hl : d.gestalts c gs with
        | nil => rw [hl] at this; cases this
        | cons => simp
      obtain ⟨h1, h2, h3, h4, h5⟩ := ih (gs ++ d.gestalts c gs)
      rw [List.length_append] at h2
      refine ⟨by simp only [List.length_cons]; omega, by omega, .inr (by omega), fun h => by omega, fun _ => by simp only [List.length_cons]; omega⟩
    | false =>
      rw [if_neg (by simp)]
      obtain ⟨h1, h2, h3, h4, h5⟩ := ih gs
      refine ⟨by simp only [List.length_cons]; omega, h2, by simp only [List.length_cons]; omega, ?_, fun h => by simp only [List.length_cons]; have := h5 h; omega⟩
      intro h e he
      rcases List.mem_cons.1 he with rfl | he
      · exact hf
      · exact h4 h e he

theorem calcLoop_eq (c : Counts) (count : Nat) (gs : List Gestalt) (ds : List Definition) :
    calcLoop c count gs ds = if count = (pass c gs ds).1.length then some (pass c gs ds) else
      calcLoop c (pass c gs ds).1.length (pass c gs ds).1 (pass c gs ds).2 := by
  rw [calcLoop]

/-- The loop of `calc_gestalts` ends, and then no definition that is left has triggers. -/
theorem calcLoop_ends (c : Counts) (n : Nat) : ∀ (gs : List Gestalt) (ds : List Definition), ds.length ≤ n →
    ∃ gs' ds', calcLoop c gs.length gs ds = some (gs', ds') ∧ (∀ d ∈ ds', d.fires c gs' = false) ∧ gs.length ≤ gs'.length := by
  induction n with
  | zero =>
    intro gs ds hd
    have : ds = [] := List.length_eq_zero_iff.1 (by omega)
    subst this
    exact ⟨gs, [], by rw [calcLoop_eq]; simp [pass], by simp, Nat.le_refl _⟩
  | succ n ih =>
    intro gs ds hd
    obtain ⟨-, h2, -, h4, h5⟩ := pass_length c gs ds
    rw [calcLoop_eq]
    by_cases he : gs.length = (pass c gs ds).1.length
    · rw [if_pos he]
      have hq := h4 (by omega)
      rw [pass_none hq]
      exact ⟨gs, ds, rfl, hq, Nat.le_refl _⟩
    · rw [if_neg he]
      obtain ⟨gs', ds', h6, h7, h8⟩ := ih (pass c gs ds).1 (pass c gs ds).2 (by have := h5 (by omega); omega)
      exact ⟨gs', ds', h6, h7, by omega⟩

/-- `calcLoop` started with any count. -/
theorem calcLoop_total (c : Counts) (count : Nat) (gs : List Gestalt) (ds : List Definition) :
    ∃ gs' ds', calcLoop c count gs ds = some (gs', ds') := by
  rw [calcLoop_eq]
  split
  · exact ⟨_, _, rfl⟩
  · obtain ⟨gs', ds', h, -⟩ := calcLoop_ends c _ (pass c gs ds).1 (pass c gs ds).2 (Nat.le_refl _)
    exact ⟨gs', ds', h⟩

/-- The passes after the first. -/
theorem calcLoop_inv {c : Counts} {U : List Key} (n : Nat) : ∀ (gs : List Gestalt) (fired ds : List Definition), ds.length ≤ n →
    Inv c U gs fired ds → (∀ d ∈ ds, allNameless d.rules = true ∧ allNegRefs d.rules ⊆ U) →
    ∃ gs' fired' ds', calcLoop c gs.length gs ds = some (gs', ds') ∧ (fired' ++ ds').Perm (fired ++ ds) ∧ Inv c U gs' fired' ds' ∧
      ∀ d ∈ ds', d.fires c gs' = false := by
  induction n with
  | zero =>
    intro gs fired ds hd h _
    have : ds = [] := List.length_eq_zero_iff.1 (by omega)
    subst this
    exact ⟨gs, fired, [], by rw [calcLoop_eq]; simp [pass], .refl _, h, by simp⟩
  | succ n ih =>
    intro gs fired ds hd h hn
    obtain ⟨-, h2, -, h4, h5⟩ := pass_length c gs ds
    rw [calcLoop_eq]
    by_cases he : gs.length = (pass c gs ds).1.length
    · rw [if_pos he]
      have hq := h4 (by omega)
      rw [pass_none hq]
      exact ⟨gs, fired, ds, rfl, .refl _, h, hq⟩
    · rw [if_neg he]
      obtain ⟨more, hp, hi, -⟩ := pass_inv ds [] h hn
      have hsub : ∀ d ∈ (pass c gs ds).2, d ∈ fired ++ ds := fun d hd => hp.subset (List.mem_append_right _ hd)
      obtain ⟨gs', fired', ds', h6, h7, h8, h9⟩ := ih (pass c gs ds).1 (fired ++ more) (pass c gs ds).2 (by have := h5 (by omega); omega)
        hi (by
          intro d hd
          have hd' : d ∈ ds := pass_sub c gs ds d hd
          exact hn d hd')
      exact ⟨gs', fired', ds', h6, h7.trans hp, h8, h9⟩
where
  pass_sub (c : Counts) (gs : List Gestalt) (ds : List Definition) : ∀ d ∈ (pass c gs ds).2, d ∈ ds := by
    induction ds generalizing gs with
    | nil => simp [pass]
    | cons e ds ih =>
      rw [pass_cons]
      intro d hd
      split at hd
      · exact List.mem_cons_of_mem _ (ih _ d hd)
      · rcases List.mem_cons.1 hd with rfl | hd
        · exact List.mem_cons_self
        · exact List.mem_cons_of_mem _ (ih _ d hd)

/-- `calc_gestalts` of a new engine: which definitions have fired. -/
theorem calc_ok {c : Counts} {ds : List Definition} (ho : ordered [] [] ds = true) (hn : ∀ d ∈ ds, allNameless d.rules = true) :
    ∃ fired left, calcLoop c 0 [] ds = some (fired.map (·.gestalt), left) ∧ (fired ++ left).Perm ds ∧
      (∀ d ∈ fired, d.fires c (fired.map (·.gestalt)) = true) ∧ ∀ d ∈ left, d.fires c (fired.map (·.gestalt)) = false := by
  have h0 : Inv c [] [] [] ([] ++ ds) := ⟨rfl, by simp, by simp⟩
  obtain ⟨more, U, hp, hi, hx, hm⟩ := pass_first ds [] [] [] ho h0 (by simp) hn
  rw [calcLoop_eq]
  simp only [List.nil_append] at hp hi hx
  by_cases he : 0 = (pass c [] ds).1.length
  · rw [if_pos he]
    have hq := (pass_length c [] ds).2.2.2.1 (by rw [← he]; exact Nat.le_refl 0)
    rw [pass_none hq]
    exact ⟨[], ds, rfl, .refl _, by simp, hq⟩
  · rw [if_neg he]
    obtain ⟨gs', fired', ds', h6, h7, h8, h9⟩ := calcLoop_inv _ (pass c [] ds).1 more (pass c [] ds).2 (Nat.le_refl _) hi
      (fun d hd => ⟨hn d (calcLoop_inv.pass_sub c [] ds d hd), hx d hd⟩)
    refine ⟨fired', ds', ?_, h7.trans hp, ?_, ?_⟩
    · rw [h6, h8.found]
    · intro d hd
      rw [← h8.found]
      exact (h8.firedHold d hd).2
    · rw [← h8.found]
      exact h9

end Ohcount.Gestalt
