import Verif.GestaltProps
/-
C87: what the library reads in a Maven project file.
-/

namespace Ohcount.Gestalt

/-! ### The specification -/

/-- An XML document, or a part of one. -/
inductive Xml where
  | text (t : String)
  | elem (name : String) (attrs : List (String × String)) (kids : List Xml)

mutual
/-- What REXML reports of it. -/
def Xml.events : Xml → List Event
  | .text t => [.text t]
  | .elem name attrs kids => .tagStart name attrs :: (allEvents kids ++ [.tagEnd name])
def allEvents : List Xml → List Event
  | [] => []
  | x :: xs => x.events ++ allEvents xs
end

/-- The text of an element that has nothing but a text inside. -/
def textOf : List Xml → Option String
  | [.text t] => some t
  | _ => none

/-- The text of an element with the name, without blanks around it and without `${...}`. -/
def Xml.idText (name : String) : Xml → Option String
  | .text _ => none
  | .elem n _ kids => if n = name then (textOf kids).map clean else none

/-- The text of the (last) child with the name. -/
def child (name : String) : List Xml → Option String
  | [] => none
  | x :: xs => (child name xs).or (x.idText name)

mutual
/-- The plugins and dependencies of a document, with group and artifact, in the order in which they end.  One without group or artifact is left
out. -/
def Xml.declared : Xml → List Dep
  | .text _ => []
  | .elem name _ kids =>
    allDeclared kids ++
      if name = "plugin" ∨ name = "dependency" then
        match child "groupId" kids, child "artifactId" kids with
        | some g, some a => [(name, g, a)]
        | _, _ => []
      else []
def allDeclared : List Xml → List Dep
  | [] => []
  | x :: xs => x.declared ++ allDeclared xs
end

/-- The element has an `xmlns` that does not match the regular expression. -/
def foreign (R : Ruby) (re : Re) (attrs : List (String × String)) : Bool := (attrs.lookup "xmlns").any fun ns => R.is re ns == false

theorem otherNamespace_eq (R : Ruby) (re : Re) (attrs : List (String × String)) : otherNamespace R re attrs = foreign R re attrs := by
  unfold otherNamespace foreign
  cases attrs.lookup "xmlns" with
  | none => rfl
  | some ns => simp

/-- The names that the listener looks at. -/
def special (name : String) : Bool := name == "project" || name == "plugin" || name == "dependency" || name == "groupId" || name == "artifactId"

mutual
/-- Group and artifact identifiers have a text, and nothing else, inside; and there is no project in the project. -/
def Xml.wellFormed : Xml → Bool
  | .text _ => true
  | .elem name _ kids =>
    name != "project" && allWellFormed kids &&
      if name == "groupId" || name == "artifactId" then (textOf kids).isSome else true
def allWellFormed : List Xml → Bool
  | [] => true
  | x :: xs => x.wellFormed && allWellFormed xs
end

mutual
/-- No identifier, plugin or dependency in it. -/
def Xml.quiet : Xml → Bool
  | .text _ => true
  | .elem name _ kids => !special name && allQuiet kids
def allQuiet : List Xml → Bool
  | [] => true
  | x :: xs => x.quiet && allQuiet xs
end

/-- An identifier with its text, or something without identifiers, plugins and dependencies. -/
def Xml.simple : Xml → Bool
  | .text _ => true
  | .elem name attrs kids => ((name == "groupId" || name == "artifactId") && (textOf kids).isSome) || (Xml.elem name attrs kids).quiet

mutual
/-- Plugins and dependencies have identifiers of their own only: none in a part of them (such as `<exclusions>`), and no dependency in a plugin. -/
def Xml.flat : Xml → Bool
  | .text _ => true
  | .elem name _ kids =>
    if name == "plugin" || name == "dependency" then kids.all Xml.simple
    else allFlat kids
def allFlat : List Xml → Bool
  | [] => true
  | x :: xs => x.flat && allFlat xs
end

/-! ### The listener -/

/-- `Maven.events` with the state at the end. -/
def Maven.go (R : Ruby) : Maven → List Event → Option (Maven × List Dep)
  | m, [] => some (m, [])
  | m, e :: es => do
    let (m, ds) ← m.event R e
    let (m', r) ← Maven.go R m es
    pure (m', ds ++ r)

theorem events_eq (R : Ruby) (m : Maven) (es : List Event) : Maven.events R m es = (Maven.go R m es).map (·.2) := by
  induction es generalizing m with
  | nil => rfl
  | cons e es ih =>
    rw [Maven.events, Maven.go]
    cases m.event R e with
    | none => rfl
    | some x =>
      obtain ⟨m', ds⟩ := x
      show (Maven.events R m' es).bind _ = _
      rw [ih]
      show _ = ((Maven.go R m' es).bind _).map _
      cases Maven.go R m' es <;> rfl

theorem go_cons {R : Ruby} {m m' m'' : Maven} {e : Event} {es : List Event} {a b : List Dep} (h1 : m.event R e = some (m', a))
    (h2 : Maven.go R m' es = some (m'', b)) : Maven.go R m (e :: es) = some (m'', a ++ b) := by
  rw [Maven.go, h1]
  show (Maven.go R m' es).bind _ = _
  rw [h2]
  rfl

theorem go_append {R : Ruby} {m m' m'' : Maven} {es es' : List Event} {a b : List Dep} (h1 : Maven.go R m es = some (m', a))
    (h2 : Maven.go R m' es' = some (m'', b)) : Maven.go R m (es ++ es') = some (m'', a ++ b) := by
  induction es generalizing m a with
  | nil => rw [Maven.go] at h1; cases h1; exact h2
  | cons e es ih =>
    rw [Maven.go] at h1
    cases he : m.event R e with
    | none => rw [he] at h1; cases h1
    | some x =>
      obtain ⟨m1, ds⟩ := x
      rw [he] at h1
      cases hg : Maven.go R m1 es with
      | none =>
        have : (Maven.go R m1 es).bind (fun x => some (x.1, ds ++ x.2)) = some (m', a) := h1
        rw [hg] at this; cases this
      | some y =>
        have h1 : (Maven.go R m1 es).bind (fun x => some (x.1, ds ++ x.2)) = some (m', a) := h1
        rw [hg] at h1
        obtain ⟨m2, r⟩ := y
        cases h1
        rw [List.cons_append, List.append_assoc]
        exact go_cons he (ih hg)

theorem event_start {R : Ruby} {m : Maven} {name : String} {attrs : List (String × String)} (h1 : name ≠ "project") (h2 : ¬ (name = "plugin" ∨ name = "dependency")) :
    m.event R (.tagStart name attrs) = some (m, []) := by
  rw [Maven.event, if_neg h1, if_neg h2]

theorem event_end {R : Ruby} {m : Maven} {name : String} (h : special name = false) : m.event R (.tagEnd name) = some (m, []) := by
  simp only [special, Bool.or_eq_false_iff, beq_eq_false_iff_ne, ne_eq] at h
  rw [Maven.event, if_neg h.1.2, if_neg h.2, if_neg (fun hh => hh.elim h.1.1.1.2 h.1.1.2)]

mutual
/-- A part without identifiers, plugins and dependencies changes the text only. -/
theorem go_quiet (R : Ruby) : (x : Xml) → x.quiet = true → ∀ m : Maven, ∃ t, Maven.go R m x.events = some ({ m with text := t }, [])
  | .text t, _, m => ⟨some t, by rw [Xml.events]; rfl⟩
  | .elem name attrs kids, h, m => by
    rw [Xml.quiet, Bool.and_eq_true, Bool.not_eq_true'] at h
    obtain ⟨t, ht⟩ := go_allQuiet R kids h.2 m
    have hs := h.1
    simp only [special, Bool.or_eq_false_iff, beq_eq_false_iff_ne, ne_eq] at hs
    refine ⟨t, ?_⟩
    rw [Xml.events]
    have h1 := event_start (R := R) (m := m) (attrs := attrs) hs.1.1.1.1 (fun hh => hh.elim hs.1.1.1.2 hs.1.1.2)
    have h2 : Maven.go R { m with text := t } [.tagEnd name] = some ({ m with text := t }, []) := go_cons (event_end h.1) rfl
    exact go_cons h1 (go_append ht h2)
theorem go_allQuiet (R : Ruby) : (xs : List Xml) → allQuiet xs = true → ∀ m : Maven, ∃ t, Maven.go R m (allEvents xs) = some ({ m with text := t }, [])
  | [], _, m => ⟨m.text, by rw [allEvents]; rfl⟩
  | x :: xs, h, m => by
    rw [allQuiet, Bool.and_eq_true] at h
    obtain ⟨t, ht⟩ := go_quiet R x h.1 m
    obtain ⟨t', ht'⟩ := go_allQuiet R xs h.2 { m with text := t }
    exact ⟨t', by rw [allEvents]; exact go_append ht ht'⟩
end

/-- An identifier outside or inside of a dependency. -/
theorem go_id (R : Ruby) (m : Maven) {name : String} (attrs : List (String × String)) (t : String) (h : name = "groupId" ∨ name = "artifactId") :
    Maven.go R m (Xml.elem name attrs [.text t]).events =
      some (⟨m.isPom, if name = "groupId" then some (clean t) else m.group, if name = "groupId" then m.artifact else some (clean t), some t⟩, []) := by
  rw [Xml.events, allEvents, Xml.events, allEvents, List.append_nil, List.singleton_append]
  rcases h with rfl | rfl
  · simp [Maven.go, Maven.event]
  · simp [Maven.go, Maven.event]

theorem idText_quiet {name : String} (hn : special name = true) {x : Xml} (h : x.quiet = true) : x.idText name = none := by
  cases x with
  | text t => rfl
  | elem n attrs kids =>
    rw [Xml.quiet, Bool.and_eq_true, Bool.not_eq_true'] at h
    have : n ≠ name := fun he => by rw [he, hn] at h; cases h.1
    rw [Xml.idText, if_neg this]

theorem textOf_some {kids : List Xml} {t : String} (h : textOf kids = some t) : kids = [.text t] := by
  unfold textOf at h
  split at h
  · cases h; rfl
  · cases h

theorem simple_cases {x : Xml} (h : x.simple = true) : x.quiet = true ∨ ∃ name attrs t, x = .elem name attrs [.text t] ∧ (name = "groupId" ∨ name = "artifactId") := by
  cases x with
  | text t => exact .inl (by rw [Xml.quiet])
  | elem name attrs kids =>
    rw [Xml.simple, Bool.or_eq_true, Bool.and_eq_true, Bool.or_eq_true, beq_iff_eq, beq_iff_eq] at h
    rcases h with ⟨h, ht⟩ | h
    · obtain ⟨t, ht⟩ := Option.isSome_iff_exists.1 ht
      exact .inr ⟨name, attrs, t, by rw [textOf_some ht], h⟩
    · exact .inl h

/-- The inside of a plugin or a dependency. -/
theorem go_simple (R : Ruby) (xs : List Xml) (h : xs.all Xml.simple = true) (m : Maven) :
    ∃ t, Maven.go R m (allEvents xs) = some ({ m with text := t, group := (child "groupId" xs).or m.group, artifact := (child "artifactId" xs).or m.artifact }, []) := by
  induction xs generalizing m with
  | nil => exact ⟨m.text, by rw [allEvents]; rfl⟩
  | cons x xs ih =>
    rw [List.all_cons, Bool.and_eq_true] at h
    rw [allEvents, child, child]
    rcases simple_cases h.1 with hq | ⟨name, attrs, t, rfl, hn⟩
    · obtain ⟨t, ht⟩ := go_quiet R x hq m
      obtain ⟨t', ht'⟩ := ih h.2 { m with text := t }
      refine ⟨t', ?_⟩
      rw [idText_quiet (by decide) hq, idText_quiet (by decide) hq, Option.or_none, Option.or_none]
      exact go_append ht ht'
    · obtain ⟨t', ht'⟩ := ih h.2 _
      refine ⟨t', ?_⟩
      have := go_append (go_id R m attrs t hn) ht'
      rw [this]
      rcases hn with rfl | rfl <;> simp [Xml.idText, textOf, Option.or_assoc]

theorem quiet_declared_aux : (∀ x : Xml, x.quiet = true → x.declared = []) ∧ ∀ xs : List Xml, allQuiet xs = true → allDeclared xs = [] := by
  have h := @Xml.rec (fun x => x.quiet = true → x.declared = []) (fun xs => allQuiet xs = true → allDeclared xs = [])
    (fun t _ => by rw [Xml.declared])
    (fun name attrs kids ih h => by
      rw [Xml.quiet, Bool.and_eq_true, Bool.not_eq_true'] at h
      have hs := h.1
      simp only [special, Bool.or_eq_false_iff, beq_eq_false_iff_ne, ne_eq] at hs
      rw [Xml.declared, ih h.2, if_neg (fun hh => hh.elim hs.1.1.1.2 hs.1.1.2)]
      rfl)
    (fun _ => by rw [allDeclared])
    (fun x xs ih1 ih2 h => by
      rw [allQuiet, Bool.and_eq_true] at h
      rw [allDeclared, ih1 h.1, ih2 h.2]; rfl)
  refine ⟨h, fun xs => ?_⟩
  induction xs with
  | nil => intro _; rw [allDeclared]
  | cons x xs ih =>
    intro hq
    rw [allQuiet, Bool.and_eq_true] at hq
    rw [allDeclared, h x hq.1, ih hq.2]; rfl

theorem simple_declared {xs : List Xml} (h : xs.all Xml.simple = true) : allDeclared xs = [] := by
  induction xs with
  | nil => rw [allDeclared]
  | cons x xs ih =>
    rw [List.all_cons, Bool.and_eq_true] at h
    rw [allDeclared, ih h.2]
    rcases simple_cases h.1 with hq | ⟨name, attrs, t, rfl, hn⟩
    · rw [quiet_declared_aux.1 x hq]; rfl
    · rw [Xml.declared, allDeclared, Xml.declared, allDeclared]
      rcases hn with rfl | rfl <;> rfl

mutual
/-- Any part of a project file. -/
theorem go_flat (R : Ruby) : (x : Xml) → x.flat = true → x.wellFormed = true → ∀ m : Maven, ∃ m', m'.isPom = m.isPom ∧
    Maven.go R m x.events = some (m', if m.isPom then x.declared else [])
  | .text t, _, _, m => ⟨{ m with text := some t }, rfl, by rw [Xml.events, Xml.declared]; simp [Maven.go, Maven.event]⟩
  | .elem name attrs kids, hf, hw, m => by
    rw [Xml.wellFormed, Bool.and_eq_true, Bool.and_eq_true, bne_iff_ne] at hw
    rw [Xml.flat] at hf
    by_cases hd : name = "plugin" ∨ name = "dependency"
    · rw [if_pos (by simpa using hd)] at hf
      obtain ⟨t, ht⟩ := go_simple R kids hf { m with group := none, artifact := none }
      have hstart : m.event R (.tagStart name attrs) = some ({ m with group := none, artifact := none }, []) := by
        rw [Maven.event, if_neg hw.1.1, if_pos hd]
      simp only [Option.or_none] at ht
      rw [Xml.events, Xml.declared, simple_declared hf, if_pos hd]
      have hne : name ≠ "groupId" ∧ name ≠ "artifactId" := by rcases hd with rfl | rfl <;> decide
      refine ⟨{ m with text := t, group := child "groupId" kids, artifact := child "artifactId" kids }, rfl, ?_⟩
      have hend : Maven.event R { m with text := t, group := child "groupId" kids, artifact := child "artifactId" kids } (.tagEnd name) =
          some ({ m with text := t, group := child "groupId" kids, artifact := child "artifactId" kids },
            if m.isPom then (match child "groupId" kids, child "artifactId" kids with | some g, some a => [(name, g, a)] | _, _ => []) else []) := by
        rw [Maven.event, if_neg hne.1, if_neg hne.2, if_pos hd]
        dsimp only
        cases m.isPom <;> cases child "groupId" kids <;> cases child "artifactId" kids <;> rfl
      have := go_cons hstart (go_append ht (go_cons hend (Maven.go.eq_1 R _)))
      rw [this]
      simp
    · have hc : (name == "plugin" || name == "dependency") = false := by
        rw [← Bool.not_eq_true, Bool.or_eq_true, beq_iff_eq, beq_iff_eq]; exact hd
      rw [hc, if_neg (by simp)] at hf
      by_cases hi : name = "groupId" ∨ name = "artifactId"
      · have hk := hw.2
        rw [if_pos (by simpa using hi)] at hk
        obtain ⟨t, ht⟩ := Option.isSome_iff_exists.1 hk
        rw [textOf_some ht]
        refine ⟨⟨m.isPom, if name = "groupId" then some (clean t) else m.group, if name = "groupId" then m.artifact else some (clean t), some t⟩, rfl, ?_⟩
        rw [go_id R m attrs t hi, Xml.declared, allDeclared, Xml.declared, allDeclared, if_neg hd]
        simp
      · obtain ⟨m', h1, h2⟩ := go_allFlat R kids hf hw.1.2 m
        have hs : special name = false := by
          simp only [special, Bool.or_eq_false_iff, beq_eq_false_iff_ne, ne_eq]
          exact ⟨⟨⟨⟨hw.1.1, fun h => hd (.inl h)⟩, fun h => hd (.inr h)⟩, fun h => hi (.inl h)⟩, fun h => hi (.inr h)⟩
        refine ⟨m', h1, ?_⟩
        rw [Xml.events, Xml.declared, if_neg hd, List.append_nil]
        have := go_cons (event_start (R := R) (m := m) (attrs := attrs) hw.1.1 hd) (go_append h2 (go_cons (event_end hs) (Maven.go.eq_1 R _)))
        rw [this]
        simp
theorem go_allFlat (R : Ruby) : (xs : List Xml) → allFlat xs = true → allWellFormed xs = true → ∀ m : Maven, ∃ m', m'.isPom = m.isPom ∧
    Maven.go R m (allEvents xs) = some (m', if m.isPom then allDeclared xs else [])
  | [], _, _, m => ⟨m, rfl, by rw [allEvents, allDeclared]; simp [Maven.go]⟩
  | x :: xs, hf, hw, m => by
    rw [allFlat, Bool.and_eq_true] at hf
    rw [allWellFormed, Bool.and_eq_true] at hw
    obtain ⟨m', h1, h2⟩ := go_flat R x hf.1 hw.1 m
    obtain ⟨m'', h3, h4⟩ := go_allFlat R xs hf.2 hw.2 m'
    refine ⟨m'', h3.trans h1, ?_⟩
    rw [allEvents, allDeclared]
    have := go_append h2 h4
    rw [this, h1]
    cases m.isPom <;> simp
end

/-! ### C87 -/

/-- **C87**: what the library reads of a project file are its plugins and dependencies, with their groups and artifacts.  A file for another
namespace has none. -/
def C87_full : Prop :=
  ∀ (R : Ruby) (attrs : List (String × String)) (kids : List Xml), allWellFormed kids = true →
    Maven.events R {} (Xml.elem "project" attrs kids).events = some (if foreign R pomNamespace attrs then [] else allDeclared kids)

/-- **C87**: it holds if no plugin or dependency has a part with identifiers, plugins or dependencies of its own. -/
theorem C87_flat_partial (R : Ruby) (attrs : List (String × String)) {kids : List Xml} (hw : allWellFormed kids = true) (hf : allFlat kids = true) :
    Maven.events R {} (Xml.elem "project" attrs kids).events = some (if foreign R pomNamespace attrs then [] else allDeclared kids) := by
  rw [events_eq, Xml.events, ← otherNamespace_eq]
  have hstart : Maven.event R {} (.tagStart "project" attrs) = some ({ isPom := !otherNamespace R pomNamespace attrs }, []) := rfl
  obtain ⟨m', h1, h2⟩ := go_allFlat R kids hf hw { isPom := !otherNamespace R pomNamespace attrs }
  have hend : m'.event R (.tagEnd "project") = some (m', []) := rfl
  have := go_cons hstart (go_append h2 (go_cons hend (Maven.go.eq_1 R _)))
  rw [this]
  cases otherNamespace R pomNamespace attrs <;> simp

def leaf (name t : String) : Xml := .elem name [] [.text t]

/-- A project with a dependency and a plugin. -/
def pom0 : List Xml :=
  [leaf "groupId" "my.group", .text "\n", leaf "artifactId" "mine", .text "\n",
   .elem "dependencies" [] [.text "\n  ", .elem "dependency" [] [leaf "groupId" " org.jboss ", .text "\n", leaf "artifactId" "jboss-client", leaf "version" "1"]],
   .elem "build" [] [.elem "plugins" [] [.elem "plugin" [] [leaf "artifactId" "x-maven", leaf "groupId" "org.codehaus", .elem "configuration" [] [leaf "a" "b"]],
     .elem "plugin" [] [leaf "artifactId" "maven-jar-plugin"]]]]

example : allWellFormed pom0 = true ∧ allFlat pom0 = true ∧
    Maven.events ruby0 {} (Xml.elem "project" [] pom0).events = some [("dependency", "org.jboss", "jboss-client"), ("plugin", "org.codehaus", "x-maven")] := by
  decide +kernel

/-- A dependency that excludes another one. -/
def pom1 : List Xml :=
  [.elem "dependency" [] [leaf "groupId" "org.apache.tomcat", leaf "artifactId" "catalina",
    .elem "exclusions" [] [.elem "exclusion" [] [leaf "groupId" "org.jboss", leaf "artifactId" "jboss-client"]]]]

/-- **C87** is false: a dependency that excludes another one is read as a dependency on the other one. -/
theorem C87_negation : ¬ C87_full := fun h => by
  have := h ruby0 [] pom1 (by decide +kernel)
  revert this
  decide +kernel

/-- ... so that `pom1` is read as if it were used. -/
theorem C87_excluded : Maven.events ruby0 {} (Xml.elem "project" [] pom1).events = some [("dependency", "org.jboss", "jboss-client")] := by decide +kernel

/-! ### C90 -/

mutual
/-- The projects that a project file imports. -/
def Xml.imports : Xml → List String
  | .text _ => []
  | .elem name attrs kids => (if name = "Import" then (attrs.lookup "Project").toList else []) ++ allImports kids
def allImports : List Xml → List String
  | [] => []
  | x :: xs => x.imports ++ allImports xs
end

mutual
/-- All elements `Project` in it are such that `P` holds of their attributes. -/
def Xml.projects (P : List (String × String) → Bool) : Xml → Bool
  | .text _ => true
  | .elem name attrs kids => (name != "Project" || P attrs) && allProjects P kids
def allProjects (P : List (String × String) → Bool) : List Xml → Bool
  | [] => true
  | x :: xs => x.projects P && allProjects P xs
end

theorem csproj_start (R : Ruby) (b : Bool) (name : String) (attrs : List (String × String)) (es : List Event) :
    csprojEvents R b (.tagStart name attrs :: es) =
      if name = "Project" then csprojEvents R (!foreign R csprojNamespace attrs) es
      else (if b then (if name = "Import" then (attrs.lookup "Project").toList else []) else []) ++ csprojEvents R b es := by
  have h : csprojEvents R b (.tagStart name attrs :: es) =
      if name = "Project" then csprojEvents R (!otherNamespace R csprojNamespace attrs) es
      else if name = "Import" then
        match b, attrs.lookup "Project" with
        | true, some i => i :: csprojEvents R b es
        | _, _ => csprojEvents R b es
      else csprojEvents R b es := rfl
  rw [h, otherNamespace_eq]
  split
  · rfl
  · split
    · cases b <;> cases attrs.lookup "Project" <;> rfl
    · cases b <;> rfl

mutual
theorem csproj_go (R : Ruby) (b : Bool) : (x : Xml) → (∀ es, x.projects (fun attrs => foreign R csprojNamespace attrs == !b) = true →
    csprojEvents R b (x.events ++ es) = (if b then x.imports else []) ++ csprojEvents R b es)
  | .text t, es, _ => by rw [Xml.events, Xml.imports]; simp [csprojEvents]
  | .elem name attrs kids, es, h => by
    rw [Xml.projects, Bool.and_eq_true] at h
    rw [Xml.events, Xml.imports, List.cons_append, List.append_assoc, csproj_start]
    have hk := csproj_goAll R b kids ([.tagEnd name] ++ es) h.2
    have he : csprojEvents R b ([.tagEnd name] ++ es) = csprojEvents R b es := by rw [List.singleton_append, csprojEvents]; intro _ _ hh; cases hh
    rw [he] at hk
    by_cases hp : name = "Project"
    · have h1 := h.1
      rw [Bool.or_eq_true, bne_iff_ne, beq_iff_eq] at h1
      have hf : foreign R csprojNamespace attrs = !b := h1.resolve_left fun hh => hh hp
      rw [if_pos hp, hf, Bool.not_not, hk]
      have : ¬ name = "Import" := by rw [hp]; decide
      rw [if_neg this]
      cases b <;> rfl
    · rw [if_neg hp, hk]
      cases b <;> simp
theorem csproj_goAll (R : Ruby) (b : Bool) : (xs : List Xml) → (∀ es, allProjects (fun attrs => foreign R csprojNamespace attrs == !b) xs = true →
    csprojEvents R b (allEvents xs ++ es) = (if b then allImports xs else []) ++ csprojEvents R b es)
  | [], es, _ => by rw [allEvents, allImports]; simp
  | x :: xs, es, h => by
    rw [allProjects, Bool.and_eq_true] at h
    rw [allEvents, allImports, List.append_assoc, csproj_go R b x _ h.1, csproj_goAll R b xs es h.2]
    cases b <;> simp
end

/-- **C90**: what the library reads of a project file of C# are its imports; a file for another namespace has none. -/
def C90_full : Prop :=
  ∀ (R : Ruby) (attrs : List (String × String)) (kids : List Xml),
    csprojEvents R false (Xml.elem "Project" attrs kids).events = if foreign R csprojNamespace attrs then [] else allImports kids

/-- **C90**: it holds if the elements `Project` inside of the file (which name other projects) are for the same namespace as the file, or for none. -/
theorem C90_imports_partial (R : Ruby) (attrs : List (String × String)) {kids : List Xml}
    (hp : allProjects (fun a => foreign R csprojNamespace a == foreign R csprojNamespace attrs) kids = true) :
    csprojEvents R false (Xml.elem "Project" attrs kids).events = if foreign R csprojNamespace attrs then [] else allImports kids := by
  have h := csproj_goAll R (!foreign R csprojNamespace attrs) kids [.tagEnd "Project"] (by rw [Bool.not_not]; exact hp)
  have he : csprojEvents R (!foreign R csprojNamespace attrs) [.tagEnd "Project"] = [] := rfl
  rw [he, List.append_nil] at h
  rw [Xml.events, csproj_start, if_pos rfl, h]
  cases foreign R csprojNamespace attrs <;> rfl

/-- A regular expression engine that knows one namespace. -/
def ruby2 : Ruby where
  groups re s := if re = csprojNamespace && s == "http://schemas.microsoft.com/developer/msbuild/2003" then some [some s] else none
  scan _ _ := []
  xml _ := []

/-- A reference to another project and an import. -/
def csproj0 : List Xml :=
  [.elem "ItemGroup" [] [.elem "ProjectReference" [] [.elem "Project" [] [.text "{1}"]]], .text "\n", .elem "Import" [("Project", "x.targets")] []]

example : allProjects (fun a => foreign ruby2 csprojNamespace a == foreign ruby2 csprojNamespace [("xmlns", "http://schemas.microsoft.com/developer/msbuild/2003")]) csproj0 = true ∧
    csprojEvents ruby2 false (Xml.elem "Project" [("xmlns", "http://schemas.microsoft.com/developer/msbuild/2003")] csproj0).events = ["x.targets"] := by
  decide +kernel

/-- **C90** is false: in a file for another namespace, a reference to a project makes the imports after it count. -/
theorem C90_negation : ¬ C90_full := fun h => by
  have := h ruby2 [("xmlns", "urn:other")] csproj0
  revert this
  decide +kernel

/-! ### C88 -/

/-- **C88**: the analysis of a project raises no exception. -/
def C88_full : Prop := ∀ (R : Ruby) (files : List Source), ∃ gs, analyze R shipped files = some gs

/-- An identifier that ends before there was any text. -/
def EarlyId (es : List Event) : Prop :=
  ∃ a name b, es = a ++ .tagEnd name :: b ∧ (name = "groupId" ∨ name = "artifactId") ∧ ∀ t, Event.text t ∉ a

theorem go_text {R : Ruby} (es : List Event) {m : Maven} (h : m.text.isSome = true) : ∃ x, Maven.go R m es = some x := by
  induction es generalizing m with
  | nil => exact ⟨_, rfl⟩
  | cons e es ih =>
    have : ∃ m' ds, m.event R e = some (m', ds) ∧ m'.text.isSome = true := by
      cases ht : m.text with
      | none => rw [ht] at h; cases h
      | some t =>
        cases e with
        | tagStart name attrs =>
          rw [Maven.event]
          split
          · exact ⟨_, _, rfl, by simp [ht]⟩
          · split
            · exact ⟨_, _, rfl, by simp [ht]⟩
            · exact ⟨_, _, rfl, by simp [ht]⟩
        | tagEnd name =>
          rw [Maven.event]
          rw [ht]
          split
          · exact ⟨_, _, rfl, by simp [ht]⟩
          · split
            · exact ⟨_, _, rfl, by simp [ht]⟩
            · split
              · split <;> exact ⟨_, _, rfl, by simp [ht]⟩
              · exact ⟨_, _, rfl, by simp [ht]⟩
        | text t' => exact ⟨_, _, rfl, rfl⟩
    obtain ⟨m', ds, h1, h2⟩ := this
    obtain ⟨⟨m'', r⟩, h3⟩ := ih h2
    exact ⟨_, go_cons h1 h3⟩

theorem events_none (R : Ruby) (es : List Event) : ∀ m : Maven, m.text = none → (Maven.events R m es = none ↔ EarlyId es) := by
  induction es with
  | nil =>
    intro m _
    refine ⟨(fun h => nomatch h), ?_⟩
    rintro ⟨a, name, b, h, -⟩
    exact absurd h (by simp)
  | cons e es ih =>
    intro m hm
    rw [Maven.events]
    cases e with
    | text t =>
      obtain ⟨⟨m', r⟩, h⟩ := go_text (R := R) es (m := { m with text := some t }) rfl
      have h' : Maven.events R { m with text := some t } es = some r := by rw [events_eq, h]; rfl
      have : ∀ x : Option (List Dep), x = some r → ((Maven.event R m (.text t)).bind fun y => (Maven.events R y.1 es).bind fun r => some (y.2 ++ r)) ≠ none := by
        intro _ _
        show ((Maven.events R { m with text := some t } es).bind _) ≠ none
        rw [h']
        exact fun hh => nomatch hh
      refine ⟨fun hn => absurd hn (this _ h'), ?_⟩
      rintro ⟨a, name, b, he, -, ht⟩
      cases a with
      | nil => cases he
      | cons x a => cases he; exact absurd List.mem_cons_self (ht t)
    | tagStart name attrs =>
      obtain ⟨m', h1, h2⟩ : ∃ m', Maven.event R m (.tagStart name attrs) = some (m', []) ∧ m'.text = none := by
        rw [Maven.event]
        split
        · exact ⟨_, rfl, hm⟩
        · split <;> exact ⟨_, rfl, hm⟩
      rw [h1]
      show ((Maven.events R m' es).bind fun r => some ([] ++ r)) = none ↔ _
      rw [Option.bind_eq_none_iff]
      have : (∀ a, Maven.events R m' es = some a → some ([] ++ a) = none) ↔ Maven.events R m' es = none := by
        cases Maven.events R m' es <;> simp
      rw [this, ih m' h2]
      constructor
      · rintro ⟨a, n, b, rfl, hn, ht⟩
        exact ⟨.tagStart name attrs :: a, n, b, rfl, hn, fun t h => by
          rcases List.mem_cons.1 h with h | h
          · cases h
          · exact ht t h⟩
      · rintro ⟨a, n, b, he, hn, ht⟩
        cases a with
        | nil => cases he
        | cons x a => cases he; exact ⟨a, n, b, rfl, hn, fun t h => ht t (List.mem_cons_of_mem _ h)⟩
    | tagEnd name =>
      by_cases hn : name = "groupId" ∨ name = "artifactId"
      · have h1 : Maven.event R m (.tagEnd name) = none := by
          rw [Maven.event]
          rw [hm]
          rcases hn with rfl | rfl <;> rfl
        rw [h1]
        exact ⟨fun _ => ⟨[], name, es, rfl, hn, by simp⟩, fun _ => rfl⟩
      · obtain ⟨ds, h1⟩ : ∃ ds, Maven.event R m (.tagEnd name) = some (m, ds) := by
          rw [Maven.event]
          rw [if_neg fun h => hn (.inl h), if_neg fun h => hn (.inr h)]
          split
          · split <;> exact ⟨_, rfl⟩
          · exact ⟨_, rfl⟩
        rw [h1]
        show ((Maven.events R m es).bind fun r => some (ds ++ r)) = none ↔ _
        rw [Option.bind_eq_none_iff]
        have : (∀ a, Maven.events R m es = some a → some (ds ++ a) = none) ↔ Maven.events R m es = none := by
          cases Maven.events R m es <;> simp
        rw [this, ih m hm]
        constructor
        · rintro ⟨a, n, b, rfl, hn', ht⟩
          exact ⟨.tagEnd name :: a, n, b, rfl, hn', fun t h => by
            rcases List.mem_cons.1 h with h | h
            · cases h
            · exact ht t h⟩
        · rintro ⟨a, n, b, he, hn', ht⟩
          cases a with
          | nil => cases he; exact absurd hn' hn
          | cons x a => cases he; exact ⟨a, n, b, rfl, hn', fun t h => ht t (List.mem_cons_of_mem _ h)⟩

theorem hits_none (R : Ruby) (f : Source) (t : Test) : t.hits R f = none ↔ (∃ ty g a, t = .maven ty g a) ∧ R.is pomRe f.filename = true ∧
    ∃ lb, f.breakdown "xml" = some lb ∧ EarlyId (R.xml lb.code) := by
  cases t with
  | maven ty g a =>
    rw [Test.hits]
    by_cases hp : R.is pomRe f.filename = true
    · rw [if_pos hp]
      cases hb : f.breakdown "xml" with
      | none => simp
      | some lb =>
        show (Maven.events R {} (R.xml lb.code)).bind _ = none ↔ _
        constructor
        · intro h
          refine ⟨⟨ty, g, a, rfl⟩, hp, lb, rfl, ?_⟩
          refine (events_none R (R.xml lb.code) {} rfl).1 ?_
          cases he : Maven.events R {} (R.xml lb.code) with
          | none => rfl
          | some x => rw [he] at h; cases h
        · rintro ⟨-, -, lb', h1, h2⟩
          cases h1
          rw [(events_none R (R.xml lb.code) {} rfl).2 h2]
          rfl
    · rw [if_neg hp]
      simp [hp]
  | keyword l w =>
    cases l with
    | none => simp [Test.hits]
    | some l => rw [Test.hits]; split <;> simp
  | cKeyword w =>
    rw [Test.hits]
    split
    · simp
    · split <;> simp
  | cHeader w => rw [Test.hits]; split <;> simp
  | javaImport w => rw [Test.hits]; split <;> simp
  | csharpUsing w => rw [Test.hits]; split <;> simp
  | csproj w =>
    rw [Test.hits]
    split
    · split <;> simp
    · simp
  | filename w => simp [Test.hits]
  | findFilenames w g => simp [Test.hits]

/-- **C88**: exactly the Maven project files in which an identifier ends before any text raise one. -/
theorem C88_raises_partial (R : Ruby) (files : List Source) :
    analyze R shipped files = none ↔ ∃ f ∈ files, R.is pomRe f.filename = true ∧ ∃ lb, f.breakdown "xml" = some lb ∧ EarlyId (R.xml lb.code) := by
  have h := C83_ends R shipped files
  constructor
  · intro hn
    refine Classical.byContradiction fun hc => ?_
    have : ∃ gs, analyze R shipped files = some gs := h.2 fun f hf d hd t ht => by
      cases hh : t.hits R f with
      | some n => exact ⟨n, rfl⟩
      | none =>
        obtain ⟨-, h1, h2⟩ := (hits_none R f t).1 hh
        exact absurd ⟨f, hf, h1, h2⟩ hc
    obtain ⟨gs, hgs⟩ := this
    rw [hn] at hgs
    cases hgs
  · rintro ⟨f, hf, h1, h2⟩
    cases ha : analyze R shipped files with
    | none => rfl
    | some gs =>
      have ht : ∃ d ∈ shipped, ∃ t ∈ allTests d.rules, ∃ ty g a, t = Test.maven ty g a :=
        ⟨d60, by simp [shipped], .maven "dependency" ⟨"^org.jboss\\b", false⟩ ⟨".*", false⟩, by decide +kernel, _, _, _, rfl⟩
      obtain ⟨d, hd, t, htt, htm⟩ := ht
      obtain ⟨n, hn⟩ := h.1 ⟨gs, ha⟩ f hf d hd t htt
      rw [(hits_none R f t).2 ⟨htm, h1, h2⟩] at hn
      cases hn

/-- A regular expression engine that knows `pom.xml`, and a parser that knows an empty identifier. -/
def ruby1 : Ruby where
  groups re s := if re = pomRe && s == "pom.xml" then some [some s] else none
  scan _ _ := []
  xml s := if s == "<project><groupId/></project>" then (Xml.elem "project" [] [.elem "groupId" [] []]).events else []

def emptyId : Source := ⟨"pom.xml", "pom.xml", some "xml", [⟨"xml", "<project><groupId/></project>", 1⟩]⟩

/-- **C88** is false: `<project><groupId/></project>` raises an exception, and the project has no gestalts at all. -/
theorem C88_negation : ¬ C88_full := fun h => by
  obtain ⟨gs, hg⟩ := h ruby1 [java0 "", emptyId]
  have : analyze ruby1 shipped [java0 "", emptyId] = none := by
    rw [C88_raises_partial]
    refine ⟨emptyId, by simp, by decide +kernel, _, rfl, [.tagStart "project" [], .tagStart "groupId" []], "groupId", [.tagEnd "project"], by decide +kernel, .inl rfl, ?_⟩
    intro t
    simp
  rw [this] at hg
  cases hg

end Ohcount.Gestalt
