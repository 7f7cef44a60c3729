import Verif.Diff
/-
C105: objects that a Ruby or Python program gets from other objects.

ruby/ohcount.i makes classes of the structures of the library. An object made by `new` is freed by
its destructor when the garbage collector finds no reference to it; objects that are returned by
the methods of other objects are pointers into these and keep nothing alive. The model has the
objects of the library, the references of the program and the garbage collector.
-/

namespace Ohcount.Owners

open Ohcount

/-- What an object of the library is. -/
inductive Kind where
  /-- a list of source files -/
  | list
  /-- a source file -/
  | file
  /-- a language or line count of a source file -/
  | part
  /-- the result of a comparison or of an analysis, or an entry of it -/
  | result
  /-- an array of pointers to the names of a file context -/
  | array
  deriving DecidableEq, Repr

/-- An object of the library. -/
structure Obj where
  kind : Kind
  /-- what a program reads from it -/
  val : Bytes
  /-- the objects that its methods return -/
  kids : List Nat
  /-- the object whose destructor frees it, `none` if there is none -/
  root : Option Nat
  /-- the member `filenames` of a source file, `none` for a null pointer -/
  ctx : Option Nat
  live : Bool
  deriving DecidableEq, Repr

/-- A reference: the object it points to, whether the program has it, and whether its collection
runs the destructor. -/
structure Ref where
  tgt : Nat
  kept : Bool
  owns : Bool
  deriving DecidableEq, Repr

structure State where
  objs : List Obj
  refs : List Ref
  deriving DecidableEq, Repr

/-- What a program, or the garbage collector on its behalf, can do. References are numbered in the
order in which they are made. -/
inductive Op where
  /-- `SourceFile.new(path, :contents => b)` -/
  | file (b : Bytes)
  /-- `SourceFileList.new` -/
  | list
  /-- `list.add_file(path)` where the file has the contents `b` -/
  | add (l : Nat) (b : Bytes)
  /-- the `k`-th file of a list (`each_source_file`), the `k`-th language or line count of a file
  (`language_breakdowns`, `loc_list`) or the `k`-th entry of a result -/
  | take (h : Nat) (k : Nat)
  /-- `file.diff(other)` -/
  | diff (h h' : Nat)
  /-- `list.analyze_languages` -/
  | analyze (l : Nat)
  /-- `file.filenames = names`; what the names are is in C104 -/
  | context (h : Nat)
  /-- read the members of an object and the number of those it returns -/
  | read (h : Nat)
  /-- drop a reference -/
  | lose (h : Nat)
  /-- a run of the garbage collector, which collects those of the listed references that the program
  has dropped; which these are is not known to the program -/
  | gc (which : List Nat)

/-- What the library computes, which is the subject of other properties: the languages and line
counts of a file, the entries of a comparison and of an analysis. -/
structure Lib where
  parts : Bytes → List Bytes
  deltas : Bytes → Bytes → List Bytes
  totals : List Bytes → List Bytes

inductive Fault where
  | noObject
  | crash
  deriving DecidableEq, Repr

def start : State := ⟨[], []⟩

/-- The block of objects of a source file that is made as object `n`: the file, then its languages
and line counts. In the code the latter are made by the first call that asks for them. -/
def fileObjs (L : Lib) (n : Nat) (root : Nat) (b : Bytes) : List Obj :=
  ⟨.file, b, (List.range (L.parts b).length).map (n + 1 + ·), some root, none, true⟩ ::
    (L.parts b).map fun v => ⟨.part, v, [], some root, none, true⟩

/-- The block of a result, which no destructor frees: `_diff` and `analyze_languages` of
ruby/ohcount.i:109-111 and 291-293 are not marked `%newobject`. -/
def resultObjs (n : Nat) (vs : List Bytes) : List Obj :=
  ⟨.result, [], (List.range vs.length).map (n + 1 + ·), none, none, true⟩ ::
    vs.map fun v => ⟨.result, v, [], none, none, true⟩

/-- An object gets a further one that its methods return. -/
def Obj.push (o : Obj) (n : Nat) : Obj := { o with kids := o.kids ++ [n] }

/-- `SourceFile` and `ohcount_sourcefile_new`, ruby/ohcount.i:121-136 and 182-202. -/
def State.newFile (L : Lib) (σ : State) (b : Bytes) : State :=
  ⟨σ.objs ++ fileObjs L σ.objs.length σ.objs.length b, σ.refs ++ [⟨σ.objs.length, true, true⟩]⟩

/-- `SourceFileListItem`, ruby/ohcount.i:225-238 and 241-278, without options. -/
def State.newList (σ : State) : State :=
  ⟨σ.objs ++ [⟨.list, [], [], some σ.objs.length, none, true⟩], σ.refs ++ [⟨σ.objs.length, true, true⟩]⟩

/-- `add_file`, ruby/ohcount.i:285-287: the file is freed with the list
(`ohcount_sourcefile_list_free`, src/sourcefile.c:411-421). -/
def State.addFile (L : Lib) (σ : State) (l : Nat) (b : Bytes) : State :=
  ⟨σ.objs.modify l (·.push σ.objs.length) ++ fileObjs L σ.objs.length l b, σ.refs⟩

/-- A result. -/
def State.newResult (σ : State) (vs : List Bytes) : State :=
  ⟨σ.objs ++ resultObjs σ.objs.length vs, σ.refs ++ [⟨σ.objs.length, true, false⟩]⟩

/-- `set_filenames`, ruby/ohcount.i:113-120: the new array is freed by the destructor of the file,
ruby/ohcount.i:205-209, if the file was made by `new`; the function that frees the files of a list
does not free the array. The old array is forgotten. -/
def State.setContext (σ : State) (f : Nat) (o : Obj) : State :=
  let objs := match o.ctx with
    | none => σ.objs
    | some a => σ.objs.modify a fun x => { x with root := none }
  ⟨objs.modify f (fun x => { x with ctx := some σ.objs.length }) ++
    [⟨.array, [], [], if o.root = some f then some f else none, none, true⟩], σ.refs⟩

/-- A destructor, ruby/ohcount.i:205-209 and 282-284: all that belongs to the object is freed. -/
def State.destroy (σ : State) (x : Nat) : State :=
  { σ with objs := σ.objs.map fun o => if o.root = some x then { o with live := false } else o }

/-- The garbage collector: a reference that the program has dropped goes away, and with it what it
owns. -/
def State.collect (σ : State) : List Nat → State
  | [] => σ
  | h :: hs =>
    State.collect
      (match σ.refs[h]? with
      | none => σ
      | some r =>
        if r.kept = false ∧ r.owns = true then
          ({ σ with refs := σ.refs.set h { r with owns := false } } : State).destroy r.tgt
        else σ) hs

/-- The object of a reference of the program, for use. -/
def State.use (σ : State) (h : Nat) : Except Fault (Nat × Obj) :=
  match σ.refs[h]? with
  | none => .error .noObject
  | some r =>
    if r.kept then
      match σ.objs[r.tgt]? with
      | none => .error .noObject
      | some o => if o.live then .ok (r.tgt, o) else .error .crash
    else .error .noObject

/-- What is read: the members and the number of objects that the methods return. -/
abbrev Seen := Bytes × Nat

/-- One operation: the state and what the program reads. -/
def step (L : Lib) (σ : State) : Op → Except Fault (State × List Seen)
  | .file b => .ok (σ.newFile L b, [])
  | .list => .ok (σ.newList, [])
  | .add l b => do
    let (i, o) ← σ.use l
    if o.kind = .list then pure (σ.addFile L i b, []) else throw .noObject
  | .take h k => do
    let (_, o) ← σ.use h
    match o.kids[k]? with
    | none => throw .noObject
    | some c => pure ({ σ with refs := σ.refs ++ [⟨c, true, false⟩] }, [])
  | .diff h h' => do
    let (_, o) ← σ.use h
    let (_, o') ← σ.use h'
    if o.kind = .file ∧ o'.kind = .file then pure (σ.newResult (L.deltas o.val o'.val), []) else throw .noObject
  | .analyze l => do
    let (_, o) ← σ.use l
    if o.kind = .list then
      pure (σ.newResult (L.totals (o.kids.filterMap fun c => σ.objs[c]?.map (·.val))), [])
    else throw .noObject
  | .context h => do
    let (i, o) ← σ.use h
    if o.kind = .file then pure (σ.setContext i o, []) else throw .noObject
  | .read h => do
    let (_, o) ← σ.use h
    pure (σ, [(o.val, o.kids.length)])
  | .lose h =>
    match σ.refs[h]? with
    | some ⟨t, true, w⟩ => .ok ({ σ with refs := σ.refs.set h ⟨t, false, w⟩ }, [])
    | _ => .error .noObject
  | .gc which => .ok (σ.collect which, [])

/-- A history of operations: the last state and all that was read. -/
def run (L : Lib) (σ : State) : List Op → Except Fault (State × List Seen)
  | [] => .ok (σ, [])
  | op :: ops =>
    match step L σ op with
    | .error e => .error e
    | .ok (σ', r) =>
      match run L σ' ops with
      | .error e => .error e
      | .ok (σ'', r') => .ok (σ'', r ++ r')

/-! ### Specification -/

/-- The operation is a run of the garbage collector. -/
def Op.isGc : Op → Bool
  | .gc _ => true
  | _ => false

/-- C105 in full: a program cannot tell whether, and when, the garbage collector runs. -/
def C105_full (L : Lib) : Prop :=
  ∀ (ops : List Op) (σ : State) (r : List Seen), run L start (ops.filter fun op => !op.isGc) = .ok (σ, r) →
    ∃ σ', run L start ops = .ok (σ', r)

/-- The references an operation uses. -/
def Op.uses : Op → List Nat
  | .add l _ => [l]
  | .take h _ => [h]
  | .diff h h' => [h, h']
  | .analyze l => [l]
  | .context h => [h]
  | .read h => [h]
  | _ => []

/-- What is known of a history from its text alone: on which reference made by `new` each reference
depends (results depend on none), which are dropped, and which were collected after that. -/
structure Past where
  dep : List (Option Nat)
  lost : List Nat
  gone : List Nat

def Past.start : Past := ⟨[], [], []⟩

def Past.next (p : Past) : Op → Past
  | .file _ => { p with dep := p.dep ++ [some p.dep.length] }
  | .list => { p with dep := p.dep ++ [some p.dep.length] }
  | .take h _ => { p with dep := p.dep ++ [(p.dep[h]?).join] }
  | .diff _ _ => { p with dep := p.dep ++ [none] }
  | .analyze _ => { p with dep := p.dep ++ [none] }
  | .lose h => { p with lost := h :: p.lost }
  | .gc which => { p with gone := which.filter (· ∈ p.lost) ++ p.gone }
  | _ => p

/-- Nothing is used that depends on a reference that was dropped and collected. -/
def Sound (p : Past) : List Op → Prop
  | [] => True
  | op :: ops => (∀ h ∈ op.uses, ∀ d, p.dep[h]? = some (some d) → d ∉ p.gone) ∧ Sound (p.next op) ops

/-- Nothing is used that depends on a reference that was dropped. -/
def Keeps (p : Past) : List Op → Prop
  | [] => True
  | op :: ops => (∀ h ∈ op.uses, ∀ d, p.dep[h]? = some (some d) → d ∉ p.lost) ∧ Keeps (p.next op) ops

/-! ### The invariant -/

/-- How the state and the past of a history belong together. -/
structure Inv (p : Past) (σ : State) : Prop where
  len : p.dep.length = σ.refs.length
  tgt : ∀ (h : Nat) (r : Ref), σ.refs[h]? = some r → ∃ o : Obj, σ.objs[r.tgt]? = some o ∧ o.kind ≠ .array ∧
    ((p.dep[h]? = some none ∧ o.root = none) ∨
     ∃ (d : Nat) (rd : Ref), p.dep[h]? = some (some d) ∧ σ.refs[d]? = some rd ∧ p.dep[d]? = some (some d) ∧ o.root = some rd.tgt)
  uniq : ∀ (d e : Nat) (rd re : Ref), p.dep[d]? = some (some d) → p.dep[e]? = some (some e) → σ.refs[d]? = some rd → σ.refs[e]? = some re →
    rd.tgt = re.tgt → d = e
  kids : ∀ (i : Nat) (o : Obj) (c : Nat), σ.objs[i]? = some o → c ∈ o.kids → ∃ o' : Obj, σ.objs[c]? = some o' ∧ o'.kind ≠ .array ∧ o'.root = o.root
  root : ∀ (i : Nat) (o : Obj) (x : Nat), σ.objs[i]? = some o → o.root = some x → ∃ (d : Nat) (rd : Ref), p.dep[d]? = some (some d) ∧ σ.refs[d]? = some rd ∧
    rd.tgt = x ∧ (o.live = true ↔ d ∉ p.gone)
  free : ∀ (i : Nat) (o : Obj), σ.objs[i]? = some o → o.root = none → o.live = true
  owns : ∀ (h : Nat) (r : Ref), σ.refs[h]? = some r → (r.owns = true ↔ p.dep[h]? = some (some h) ∧ h ∉ p.gone)
  gone : ∀ h ∈ p.gone, h ∈ p.lost
  lost : ∀ (h : Nat) (r : Ref), σ.refs[h]? = some r → (r.kept = false ↔ h ∈ p.lost)
  old : ∀ h ∈ p.lost, h < σ.refs.length
  list : ∀ (i : Nat) (o : Obj), σ.objs[i]? = some o → o.kind = .list → o.root = some i
  kind : ∀ (i : Nat) (o : Obj), σ.objs[i]? = some o → o.kind ≠ .array → (o.root = none ↔ o.kind = .result)
  ctx : ∀ (i : Nat) (o : Obj) (a : Nat), σ.objs[i]? = some o → o.ctx = some a → ∃ oa : Obj, σ.objs[a]? = some oa ∧ oa.kind = .array ∧
    oa.root = if o.root = some i then some i else none
  one : ∀ (i j : Nat) (o o' : Obj) (a : Nat), σ.objs[i]? = some o → σ.objs[j]? = some o' → o.ctx = some a → o'.ctx = some a → i = j
  arr : ∀ (i : Nat) (o : Obj) (x : Nat), σ.objs[i]? = some o → o.kind = .array → o.root = some x →
    ∃ f : Obj, σ.objs[x]? = some f ∧ f.ctx = some i ∧ f.root = some x
  file : ∀ (i : Nat) (o : Obj), σ.objs[i]? = some o → o.ctx ≠ none → o.kind = .file
  noKids : ∀ (i : Nat) (o : Obj), σ.objs[i]? = some o → o.kind = .array → o.kids = []

theorem inv_start : Inv Past.start start := by
  constructor <;> simp [start, Past.start]

theorem app_old {α : Type} {l B : List α} {i : Nat} {o : α} (h : l[i]? = some o) : (l ++ B)[i]? = some o := by
  rw [List.getElem?_append_left]
  · exact h
  · exact (List.getElem?_eq_some_iff.1 h).1

theorem app_cases {α : Type} {l B : List α} {i : Nat} {o : α} (h : (l ++ B)[i]? = some o) :
    l[i]? = some o ∨ (l.length ≤ i ∧ B[i - l.length]? = some o) := by
  rcases Nat.lt_or_ge i l.length with hl | hl
  · rw [List.getElem?_append_left hl] at h; exact .inl h
  · rw [List.getElem?_append_right hl] at h; exact .inr ⟨hl, h⟩

theorem one_cases {α : Type} {l : List α} {b : α} {i : Nat} {o : α} (h : (l ++ [b])[i]? = some o) :
    l[i]? = some o ∨ (i = l.length ∧ o = b) := by
  rcases app_cases h with h | ⟨h1, h2⟩
  · exact .inl h
  · obtain ⟨h3, h4⟩ := List.getElem?_eq_some_iff.1 h2
    simp at h3 h4
    exact .inr ⟨by omega, h4.symm⟩

theorem one_new {α : Type} {l : List α} {b : α} : (l ++ [b])[l.length]? = some b := by simp

/-- A block of objects: a first one, whose kids are the others, which have none. -/
structure Block (n : Nat) (B : List Obj) (root : Option Nat) (k k' : Kind) : Prop where
  pos : 0 < B.length
  all : ∀ (j : Nat) (o : Obj), B[j]? = some o → o.root = root ∧ o.ctx = none ∧ o.live = true ∧ o.kind = if j = 0 then k else k'
  kids : ∀ (j : Nat) (o : Obj) (c : Nat), B[j]? = some o → c ∈ o.kids → n < c ∧ c < n + B.length

theorem block_file (L : Lib) (n root : Nat) (b : Bytes) : Block n (fileObjs L n root b) (some root) .file .part := by
  refine ⟨by simp [fileObjs], ?_, ?_⟩
  · intro j o h
    cases j with
    | zero => simp [fileObjs] at h; subst h; simp
    | succ j =>
      simp only [fileObjs, List.getElem?_cons_succ, List.getElem?_map, Option.map_eq_some_iff] at h
      obtain ⟨v, -, rfl⟩ := h
      simp
  · intro j o c h hc
    cases j with
    | zero =>
      simp [fileObjs] at h; subst h
      simp only [List.mem_map, List.mem_range] at hc
      obtain ⟨x, hx, rfl⟩ := hc
      simp [fileObjs]; omega
    | succ j =>
      simp only [fileObjs, List.getElem?_cons_succ, List.getElem?_map, Option.map_eq_some_iff] at h
      obtain ⟨v, -, rfl⟩ := h
      simp at hc

theorem block_result (n : Nat) (vs : List Bytes) : Block n (resultObjs n vs) none .result .result := by
  refine ⟨by simp [resultObjs], ?_, ?_⟩
  · intro j o h
    cases j with
    | zero => simp [resultObjs] at h; subst h; simp
    | succ j =>
      simp only [resultObjs, List.getElem?_cons_succ, List.getElem?_map, Option.map_eq_some_iff] at h
      obtain ⟨v, -, rfl⟩ := h
      simp
  · intro j o c h hc
    cases j with
    | zero =>
      simp [resultObjs] at h; subst h
      simp only [List.mem_map, List.mem_range] at hc
      obtain ⟨x, hx, rfl⟩ := hc
      simp [resultObjs]; omega
    | succ j =>
      simp only [resultObjs, List.getElem?_cons_succ, List.getElem?_map, Option.map_eq_some_iff] at h
      obtain ⟨v, -, rfl⟩ := h
      simp at hc

theorem block_list (n root : Nat) : Block n [⟨.list, [], [], some root, none, true⟩] (some root) .list .part := by
  refine ⟨by simp, ?_, ?_⟩
  · intro j o h
    obtain ⟨h1, h2⟩ := List.getElem?_eq_some_iff.1 h
    simp at h1; subst h1; simp at h2; subst h2; simp
  · intro j o c h hc
    obtain ⟨h1, h2⟩ := List.getElem?_eq_some_iff.1 h
    simp at h1; subst h1; simp at h2; subst h2; simp at hc

theorem lt_of_some {α : Type} {l : List α} {i : Nat} {o : α} (h : l[i]? = some o) : i < l.length :=
  (List.getElem?_eq_some_iff.1 h).1

theorem some_of_lt {α : Type} {l : List α} {i : Nat} (h : i < l.length) : ∃ o, l[i]? = some o :=
  ⟨l[i], List.getElem?_eq_getElem h⟩

/-- New objects with a reference to the first of them. -/
theorem Inv.growRef {p : Past} {σ : State} (H : Inv p σ) (own : Bool) {B : List Obj} {k k' : Kind}
    (hB : Block σ.objs.length B (if own then some σ.objs.length else none) k k')
    (hk : if own then (k = .list ∨ k = .file) ∧ k' = .part else k = .result ∧ k' = .result) :
    Inv { p with dep := p.dep ++ [if own then some p.dep.length else none] }
      ⟨σ.objs ++ B, σ.refs ++ [⟨σ.objs.length, true, own⟩]⟩ := by
  have hd : ∀ d e : Nat, (p.dep ++ [if own then some p.dep.length else none])[d]? = some (some e) → (p.dep[d]? = some (some e)) ∨
      (d = p.dep.length ∧ e = p.dep.length ∧ own = true) := by
    intro d e h
    rcases one_cases h with h | ⟨h1, h2⟩
    · exact .inl h
    · cases own with
      | true => simp at h2; exact .inr ⟨h1, h2, rfl⟩
      | false => simp at h2
  obtain ⟨o0, ho0⟩ := some_of_lt hB.pos
  have hfresh : p.dep.length ∉ p.gone := fun h => by
    have := H.old _ (H.gone _ h); rw [H.len] at this; omega
  have hkn : ∀ (j : Nat) (o : Obj), B[j]? = some o → o.kind ≠ .array := by
    intro j o h
    rw [(hB.all j o h).2.2.2]
    cases own <;> simp at hk <;> split <;> rcases hk with ⟨h1, h2⟩ <;> simp_all
    rcases h1 with h1 | h1 <;> simp [h1]
  refine ⟨?_, ?_, ?_, ?_, ?_, ?_, ?_, H.gone, ?_, ?_, ?_, ?_, ?_, ?_, ?_, ?_, ?_⟩
  · simp [H.len]
  · intro h r hr
    rcases one_cases hr with hr | ⟨rfl, rfl⟩
    · obtain ⟨o, h1, h2, h3⟩ := H.tgt h r hr
      refine ⟨o, app_old h1, h2, ?_⟩
      rcases h3 with ⟨h3, h4⟩ | ⟨d, rd, h3, h4, h5, h6⟩
      · exact .inl ⟨app_old h3, h4⟩
      · exact .inr ⟨d, rd, app_old h3, app_old h4, app_old h5, h6⟩
    · refine ⟨o0, ?_, hkn 0 o0 ho0, ?_⟩
      · show (σ.objs ++ B)[σ.objs.length]? = _
        rw [List.getElem?_append_right (Nat.le_refl _), Nat.sub_self]; exact ho0
      · have h1 := (hB.all 0 o0 ho0).1
        have h2 : (p.dep ++ [if own then some p.dep.length else none])[σ.refs.length]? = some (if own then some p.dep.length else none) := by
          rw [← H.len]; exact one_new
        cases own with
        | false => exact .inl ⟨h2, h1⟩
        | true => exact .inr ⟨p.dep.length, ⟨σ.objs.length, true, true⟩, h2, by rw [H.len]; exact one_new, one_new, h1⟩
  · intro d e rd re hd1 he1 hd2 he2 ht
    have key : ∀ (d : Nat) (rd : Ref), p.dep[d]? = some (some d) → (σ.refs ++ [⟨σ.objs.length, true, own⟩])[d]? = some rd →
        rd.tgt < σ.objs.length ∧ σ.refs[d]? = some rd := by
      intro d rd h1 h2
      rcases one_cases h2 with h2 | ⟨h3, -⟩
      · obtain ⟨o, h4, -⟩ := H.tgt d rd h2
        exact ⟨lt_of_some h4, h2⟩
      · have := lt_of_some h1; rw [H.len] at this; omega
    have key' : ∀ (d : Nat) (rd : Ref), d = p.dep.length → (σ.refs ++ [⟨σ.objs.length, true, own⟩])[d]? = some rd →
        rd.tgt = σ.objs.length := by
      intro d rd h1 h2
      rcases one_cases h2 with h2 | ⟨-, h3⟩
      · have := lt_of_some h2; rw [h1, H.len] at this; omega
      · rw [h3]
    rcases hd d d hd1 with hd1 | ⟨hd1, -⟩ <;> rcases hd e e he1 with he1 | ⟨he1, -⟩
    · exact H.uniq d e rd re hd1 he1 (key d rd hd1 hd2).2 (key e re he1 he2).2 ht
    · have h1 := (key d rd hd1 hd2).1; have h2 := key' e re he1 he2; omega
    · have h1 := (key e re he1 he2).1; have h2 := key' d rd hd1 hd2; omega
    · omega
  · intro i o c ho hc
    rcases app_cases ho with ho | ⟨h1, h2⟩
    · obtain ⟨o', h3, h4⟩ := H.kids i o c ho hc
      exact ⟨o', app_old h3, h4⟩
    · have h3 := hB.kids _ o c h2 hc
      obtain ⟨o', h4⟩ := some_of_lt (show c - σ.objs.length < B.length by omega)
      refine ⟨o', ?_, hkn _ _ h4, ?_⟩
      · show (σ.objs ++ B)[c]? = _
        rw [List.getElem?_append_right (by omega)]; exact h4
      · rw [(hB.all _ _ h4).1, (hB.all _ _ h2).1]
  · intro i o x ho hx
    rcases app_cases ho with ho | ⟨h1, h2⟩
    · obtain ⟨d, rd, h3, h4, h5, h6⟩ := H.root i o x ho hx
      exact ⟨d, rd, app_old h3, app_old h4, h5, h6⟩
    · have h3 := hB.all _ o h2
      rw [h3.1] at hx
      cases own with
      | false => simp at hx
      | true =>
        simp at hx
        refine ⟨p.dep.length, _, one_new, by rw [H.len]; exact one_new, hx, ?_⟩
        exact ⟨fun _ => hfresh, fun _ => h3.2.2.1⟩
  · intro i o ho hx
    rcases app_cases ho with ho | ⟨h1, h2⟩
    · exact H.free i o ho hx
    · exact (hB.all _ o h2).2.2.1
  · intro h r hr
    rcases one_cases hr with hr | ⟨h1, h2⟩
    · rw [H.owns h r hr]
      constructor
      · exact fun h1 => ⟨app_old h1.1, h1.2⟩
      · rintro ⟨h1, h2⟩
        rcases hd h h h1 with h1 | ⟨h1, -⟩
        · exact ⟨h1, h2⟩
        · have := lt_of_some hr; rw [h1, H.len] at this; omega
    · subst h1 h2
      show own = true ↔ _
      rw [← H.len]
      constructor
      · intro h; subst h; exact ⟨one_new, hfresh⟩
      · rintro ⟨h1, -⟩
        rcases hd _ _ h1 with h1 | ⟨-, -, h1⟩
        · have := lt_of_some h1; omega
        · exact h1
  · intro h r hr
    rcases one_cases hr with hr | ⟨h1, h2⟩
    · exact H.lost h r hr
    · subst h1 h2
      constructor
      · intro h; cases h
      · intro h; have := H.old _ h; omega
  · intro h hh
    have := H.old h hh
    simp; omega
  · intro i o ho hl
    rcases app_cases ho with ho | ⟨h1, h2⟩
    · exact H.list i o ho hl
    · have h3 := hB.all _ o h2
      rw [h3.2.2.2] at hl
      rw [h3.1]
      cases own with
      | false => simp at hk; split at hl <;> simp_all
      | true =>
        simp at hk
        split at hl
        · rw [if_pos rfl]; congr 1; omega
        · rw [hk.2] at hl; cases hl
  · intro i o ho hl
    rcases app_cases ho with ho | ⟨h1, h2⟩
    · exact H.kind i o ho hl
    · have h3 := hB.all _ o h2
      rw [h3.1, h3.2.2.2]
      cases own with
      | false => simp at hk; rw [hk.1, hk.2]; simp
      | true =>
        simp at hk
        rw [if_pos rfl]
        split
        · rcases hk.1 with h | h <;> simp [h]
        · simp [hk.2]
  · intro i o a ho ha
    rcases app_cases ho with ho | ⟨h1, h2⟩
    · obtain ⟨oa, h3, h4, h5⟩ := H.ctx i o a ho ha
      exact ⟨oa, app_old h3, h4, h5⟩
    · rw [(hB.all _ o h2).2.1] at ha; cases ha
  · intro i j o o' a ho ho' ha ha'
    rcases app_cases ho with ho | ⟨h1, h2⟩
    · rcases app_cases ho' with ho' | ⟨h1, h2⟩
      · exact H.one i j o o' a ho ho' ha ha'
      · rw [(hB.all _ o' h2).2.1] at ha'; cases ha'
    · rw [(hB.all _ o h2).2.1] at ha; cases ha
  · intro i o x ho hk' hx
    rcases app_cases ho with ho | ⟨h1, h2⟩
    · obtain ⟨f, h3, h4⟩ := H.arr i o x ho hk' hx
      exact ⟨f, app_old h3, h4⟩
    · exact absurd hk' (hkn _ o h2)
  · intro i o ho hc
    rcases app_cases ho with ho | ⟨h1, h2⟩
    · exact H.file i o ho hc
    · exact absurd (hB.all _ o h2).2.1 hc
  · intro i o ho hc
    rcases app_cases ho with ho | ⟨h1, h2⟩
    · exact H.noKids i o ho hc
    · exact absurd hc (hkn _ o h2)

theorem modify_cases {α : Type} {l : List α} {f : α → α} {n i : Nat} {o : α} (h : (l.modify n f)[i]? = some o) :
    ∃ o', l[i]? = some o' ∧ ((i = n ∧ o = f o') ∨ (i ≠ n ∧ o = o')) := by
  rw [List.getElem?_modify] at h
  split at h
  · next e => cases hx : l[i]? with
    | none => rw [hx] at h; cases h
    | some o' => rw [hx] at h; exact ⟨o', rfl, .inl ⟨e.symm, by simpa using h.symm⟩⟩
  · next e => cases hx : l[i]? with
    | none => rw [hx] at h; cases h
    | some o' => rw [hx] at h; exact ⟨o', rfl, .inr ⟨fun e' => e e'.symm, by simpa using h.symm⟩⟩

theorem modify_old {α : Type} {l : List α} {f : α → α} {n i : Nat} {o : α} (h : l[i]? = some o) :
    (l.modify n f)[i]? = some (if i = n then f o else o) := by
  rw [List.getElem?_modify, h]
  by_cases e : i = n
  · simp [e]
  · have e' : ¬ n = i := fun h => e h.symm
    simp [e, e']

/-- `add_file` keeps the invariant. -/
theorem Inv.addFile {p : Past} {σ : State} (H : Inv p σ) (L : Lib) {l : Nat} {o : Obj} (b : Bytes)
    (ho : σ.objs[l]? = some o) (hl : o.live = true) (hk : o.kind = .list) : Inv p (σ.addFile L l b) := by
  have hr := H.list l o ho hk
  have hB := block_file L σ.objs.length l b
  have hlen : (σ.objs.modify l (·.push σ.objs.length)).length = σ.objs.length := by simp
  obtain ⟨d, rd, hd1, hd2, hd3, hd4⟩ := H.root l o l ho hr
  have hkn : ∀ (j : Nat) (x : Obj), (fileObjs L σ.objs.length l b)[j]? = some x → x.kind ≠ .array ∧ x.kind ≠ .list ∧ x.kind ≠ .result := by
    intro j x h
    rw [(hB.all j x h).2.2.2]
    split <;> simp
  have old : ∀ (i : Nat) (x : Obj), σ.objs[i]? = some x → ∃ x', (σ.addFile L l b).objs[i]? = some x' ∧ x'.kind = x.kind ∧
      x'.root = x.root ∧ x'.ctx = x.ctx := by
    intro i x hx
    refine ⟨_, app_old (modify_old hx), ?_⟩
    split <;> exact ⟨rfl, rfl, rfl⟩
  have new : ∀ (i : Nat) (x : Obj), (σ.addFile L l b).objs[i]? = some x →
      (∃ x', σ.objs[i]? = some x' ∧ x.kind = x'.kind ∧ x.root = x'.root ∧ x.ctx = x'.ctx ∧ x.live = x'.live ∧
        (x.kids = x'.kids ∨ (i = l ∧ x.kids = x'.kids ++ [σ.objs.length]))) ∨
      (σ.objs.length ≤ i ∧ (fileObjs L σ.objs.length l b)[i - σ.objs.length]? = some x) := by
    intro i x hx
    rcases app_cases hx with hx | hx
    · obtain ⟨x', h1, ⟨h2, h3⟩ | ⟨h2, h3⟩⟩ := modify_cases hx
      · subst h3; exact .inl ⟨x', h1, rfl, rfl, rfl, rfl, .inr ⟨h2, rfl⟩⟩
      · subst h3; exact .inl ⟨_, h1, rfl, rfl, rfl, rfl, .inl rfl⟩
    · rw [hlen] at hx; exact .inr hx
  have blk : ∀ (j : Nat) (x : Obj), (fileObjs L σ.objs.length l b)[j]? = some x → (σ.addFile L l b).objs[σ.objs.length + j]? = some x := by
    intro j x hx
    show (_ ++ _)[_]? = _
    rw [List.getElem?_append_right (by rw [hlen]; omega), hlen, Nat.add_sub_cancel_left]; exact hx
  refine ⟨H.len, ?_, H.uniq, ?_, ?_, ?_, H.owns, H.gone, H.lost, H.old, ?_, ?_, ?_, ?_, ?_, ?_, ?_⟩
  · intro h r hr
    obtain ⟨x, h1, h2, h3⟩ := H.tgt h r hr
    obtain ⟨x', h4, h5, h6, -⟩ := old _ x h1
    exact ⟨x', h4, by rw [h5]; exact h2, by rw [h6]; exact h3⟩
  · intro i x c hx hc
    rcases new i x hx with ⟨x', h1, h2, h3, h4, h5, h6⟩ | ⟨h1, h2⟩
    · have hold : c ∈ x'.kids → ∃ o', (σ.addFile L l b).objs[c]? = some o' ∧ o'.kind ≠ .array ∧ o'.root = x.root := fun hc => by
        obtain ⟨y, h7, h8, h9⟩ := H.kids i x' c h1 hc
        obtain ⟨y', h10, h11, h12, -⟩ := old c y h7
        exact ⟨y', h10, by rw [h11]; exact h8, by rw [h12, h9, h3]⟩
      rcases h6 with h6 | ⟨h6, h7⟩
      · rw [h6] at hc; exact hold hc
      · rw [h7, List.mem_append, List.mem_singleton] at hc
        rcases hc with hc | hc
        · exact hold hc
        · obtain ⟨y, hy⟩ := some_of_lt hB.pos
          subst h6
          have : x' = o := by rw [h1] at ho; cases ho; rfl
          subst this
          refine ⟨y, by rw [hc]; exact blk 0 y hy, (hkn 0 y hy).1, ?_⟩
          rw [(hB.all 0 y hy).1, h3, hr]
    · have h3 := hB.kids _ x c h2 hc
      obtain ⟨y, h4⟩ := some_of_lt (show c - σ.objs.length < (fileObjs L σ.objs.length l b).length by omega)
      refine ⟨y, ?_, (hkn _ _ h4).1, ?_⟩
      · have := blk _ y h4
        rwa [show σ.objs.length + (c - σ.objs.length) = c by omega] at this
      · rw [(hB.all _ _ h4).1, (hB.all _ _ h2).1]
  · intro i x y hx hy
    rcases new i x hx with ⟨x', h1, h2, h3, h4, h5, h6⟩ | ⟨h1, h2⟩
    · rw [h3] at hy
      obtain ⟨d, rd, h7, h8, h9, h10⟩ := H.root i x' y h1 hy
      exact ⟨d, rd, h7, h8, h9, by rw [h5]; exact h10⟩
    · have h3 := hB.all _ x h2
      rw [h3.1] at hy
      cases hy
      exact ⟨d, rd, hd1, hd2, hd3, fun _ => hd4.1 hl, fun _ => h3.2.2.1⟩
  · intro i x hx hy
    rcases new i x hx with ⟨x', h1, h2, h3, h4, h5, h6⟩ | ⟨h1, h2⟩
    · rw [h5]; exact H.free i x' h1 (by rw [← h3]; exact hy)
    · exact (hB.all _ x h2).2.2.1
  · intro i x hx hy
    rcases new i x hx with ⟨x', h1, h2, h3, h4, h5, h6⟩ | ⟨h1, h2⟩
    · rw [h3]; exact H.list i x' h1 (by rw [← h2]; exact hy)
    · exact absurd hy (hkn _ x h2).2.1
  · intro i x hx hy
    rcases new i x hx with ⟨x', h1, h2, h3, h4, h5, h6⟩ | ⟨h1, h2⟩
    · rw [h3, h2]; exact H.kind i x' h1 (by rw [← h2]; exact hy)
    · rw [(hB.all _ x h2).1]
      exact ⟨fun h => (nomatch h), fun h => absurd h (hkn _ x h2).2.2⟩
  · intro i x a hx ha
    rcases new i x hx with ⟨x', h1, h2, h3, h4, h5, h6⟩ | ⟨h1, h2⟩
    · obtain ⟨oa, h7, h8, h9⟩ := H.ctx i x' a h1 (by rw [← h4]; exact ha)
      obtain ⟨y, h10, h11, h12, -⟩ := old a oa h7
      exact ⟨y, h10, by rw [h11]; exact h8, by rw [h12, h9, h3]⟩
    · rw [(hB.all _ x h2).2.1] at ha; cases ha
  · intro i j x y a hx hy ha hb
    rcases new i x hx with ⟨x', h1, h2, h3, h4, h5, h6⟩ | ⟨h1, h2⟩
    · rcases new j y hy with ⟨y', g1, g2, g3, g4, g5, g6⟩ | ⟨g1, g2⟩
      · exact H.one i j x' y' a h1 g1 (by rw [← h4]; exact ha) (by rw [← g4]; exact hb)
      · rw [(hB.all _ y g2).2.1] at hb; cases hb
    · rw [(hB.all _ x h2).2.1] at ha; cases ha
  · intro i x y hx hy hz
    rcases new i x hx with ⟨x', h1, h2, h3, h4, h5, h6⟩ | ⟨h1, h2⟩
    · obtain ⟨f, h7, h8, h9⟩ := H.arr i x' y h1 (by rw [← h2]; exact hy) (by rw [← h3]; exact hz)
      obtain ⟨f', h10, -, h11, h12⟩ := old y f h7
      exact ⟨f', h10, by rw [h12]; exact h8, by rw [h11]; exact h9⟩
    · exact absurd hy (hkn _ x h2).1
  · intro i x hx hy
    rcases new i x hx with ⟨x', h1, h2, h3, h4, h5, h6⟩ | ⟨h1, h2⟩
    · rw [h2]; exact H.file i x' h1 (by rw [← h4]; exact hy)
    · exact absurd (hB.all _ x h2).2.1 hy
  · intro i x hx hy
    rcases new i x hx with ⟨x', h1, h2, h3, h4, h5, h6⟩ | ⟨h1, h2⟩
    · rw [h2] at hy
      rcases h6 with h6 | ⟨h6, -⟩
      · rw [h6]; exact H.noKids i x' h1 hy
      · subst h6; rw [h1] at ho; cases ho; rw [hk] at hy; cases hy
    · exact absurd hy (hkn _ x h2).1

/-- `set_filenames` keeps the invariant. -/
theorem Inv.setContext {p : Past} {σ : State} (H : Inv p σ) {f : Nat} {o : Obj}
    (ho : σ.objs[f]? = some o) (hl : o.live = true) (hk : o.kind = .file) : Inv p (σ.setContext f o) := by
  have hfa : o.ctx ≠ some f := fun h => by
    obtain ⟨oa, h1, h2, -⟩ := H.ctx f o f ho h
    rw [ho] at h1; cases h1; rw [hk] at h2; cases h2
  have hpre : ∃ objs : List Obj, (σ.setContext f o).objs = objs.modify f (fun x => { x with ctx := some σ.objs.length }) ++
      [⟨.array, [], [], if o.root = some f then some f else none, none, true⟩] ∧ objs.length = σ.objs.length ∧
      (∀ (i : Nat) (x : Obj), σ.objs[i]? = some x → objs[i]? = some { x with root := if o.ctx = some i then none else x.root }) := by
    cases hc : o.ctx with
    | none =>
      refine ⟨σ.objs, by simp [State.setContext, hc], rfl, fun i x hx => by simpa using hx⟩
    | some a =>
      refine ⟨σ.objs.modify a fun x => { x with root := none }, by simp [State.setContext, hc], by simp, fun i x hx => ?_⟩
      rw [modify_old hx]
      by_cases e : i = a
      · simp [e]
      · have e' : ¬ a = i := fun h => e h.symm
        simp [e, e']
  obtain ⟨objs, hobjs, hlen, hroot⟩ := hpre
  have old : ∀ (i : Nat) (x : Obj), σ.objs[i]? = some x → ∃ x', (σ.setContext f o).objs[i]? = some x' ∧ x'.kind = x.kind ∧
      x'.kids = x.kids ∧ x'.live = x.live ∧ (x'.root = if o.ctx = some i then none else x.root) ∧
      (x'.ctx = if i = f then some σ.objs.length else x.ctx) := by
    intro i x hx
    rw [hobjs]
    refine ⟨_, app_old (modify_old (hroot i x hx)), ?_⟩
    by_cases e : i = f <;> simp [e]
  have new : ∀ (i : Nat) (x : Obj), (σ.setContext f o).objs[i]? = some x →
      (∃ x', σ.objs[i]? = some x' ∧ x.kind = x'.kind ∧ x.kids = x'.kids ∧ x.live = x'.live ∧
        (x.root = if o.ctx = some i then none else x'.root) ∧ (x.ctx = if i = f then some σ.objs.length else x'.ctx)) ∨
      (i = σ.objs.length ∧ x = ⟨.array, [], [], if o.root = some f then some f else none, none, true⟩) := by
    intro i x hx
    rcases Nat.lt_or_ge i σ.objs.length with hi | hi
    · obtain ⟨x', hx'⟩ := some_of_lt hi
      obtain ⟨x'', h1, h2⟩ := old i x' hx'
      rw [hx] at h1; cases h1
      exact .inl ⟨x', hx', h2⟩
    · rw [hobjs] at hx
      rcases one_cases hx with hx | ⟨h1, h2⟩
      · have := lt_of_some hx
        simp [hlen] at this; omega
      · exact .inr ⟨by simpa [hlen] using h1, h2⟩
  have hnew : (σ.setContext f o).objs[σ.objs.length]? =
      some ⟨.array, [], [], if o.root = some f then some f else none, none, true⟩ := by
    rw [hobjs]
    have := @one_new Obj (objs.modify f (fun x => { x with ctx := some σ.objs.length }))
      ⟨.array, [], [], if o.root = some f then some f else none, none, true⟩
    rwa [List.length_modify, hlen] at this
  have hna : ∀ (i : Nat) (x : Obj), σ.objs[i]? = some x → x.kind ≠ .array → o.ctx ≠ some i := by
    intro i x hx hka hc
    obtain ⟨oa, h1, h2, -⟩ := H.ctx f o i ho hc
    rw [hx] at h1; cases h1; exact hka h2
  have hkeep : ∀ (i : Nat) (x : Obj), (σ.setContext f o).objs[i]? = some x → x.kind ≠ .array →
      ∃ x', σ.objs[i]? = some x' ∧ x.kind = x'.kind ∧ x.kids = x'.kids ∧ x.live = x'.live ∧ x.root = x'.root ∧
        (x.ctx = if i = f then some σ.objs.length else x'.ctx) := by
    intro i x hx hka
    rcases new i x hx with ⟨x', h1, h2, h3, h4, h5, h6⟩ | ⟨h1, h2⟩
    · rw [if_neg (hna i x' h1 (by rw [← h2]; exact hka))] at h5
      exact ⟨x', h1, h2, h3, h4, h5, h6⟩
    · subst h2; exact absurd rfl hka
  refine ⟨H.len, ?_, H.uniq, ?_, ?_, ?_, H.owns, H.gone, H.lost, H.old, ?_, ?_, ?_, ?_, ?_, ?_, ?_⟩
  · intro h r hr
    obtain ⟨x, h1, h2, h3⟩ := H.tgt h r hr
    obtain ⟨x', h4, h5, h6, h7, h8, -⟩ := old _ x h1
    rw [if_neg (hna _ x h1 h2)] at h8
    exact ⟨x', h4, by rw [h5]; exact h2, by rw [h8]; exact h3⟩
  · intro i x c hx hc
    rcases new i x hx with ⟨x', h1, h2, h3, h4, h5, h6⟩ | ⟨h1, h2⟩
    · rw [h3] at hc
      obtain ⟨y, g1, g2, g3⟩ := H.kids i x' c h1 hc
      obtain ⟨y', g4, g5, g6, g7, g8, -⟩ := old c y g1
      rw [if_neg (hna c y g1 g2)] at g8
      refine ⟨y', g4, by rw [g5]; exact g2, ?_⟩
      rw [g8, g3, h5]
      by_cases e : o.ctx = some i
      · obtain ⟨oa, e1, e2, e3⟩ := H.ctx f o i ho e
        rw [h1] at e1; cases e1
        -- an array has no kids
        rw [if_pos e]
        exact absurd e2 (fun e2 => by
          have := H.noKids i x' h1 e2
          rw [this] at hc; cases hc)
      · rw [if_neg e]
    · subst h2; cases hc
  · intro i x y hx hy
    rcases new i x hx with ⟨x', h1, h2, h3, h4, h5, h6⟩ | ⟨h1, h2⟩
    · rw [h5] at hy
      by_cases e : o.ctx = some i
      · rw [if_pos e] at hy; cases hy
      · rw [if_neg e] at hy
        obtain ⟨d, rd, g1, g2, g3, g4⟩ := H.root i x' y h1 hy
        exact ⟨d, rd, g1, g2, g3, by rw [h4]; exact g4⟩
    · subst h2
      by_cases e : o.root = some f
      · simp only [if_pos e] at hy
        cases hy
        obtain ⟨d, rd, g1, g2, g3, g4⟩ := H.root f o f ho e
        exact ⟨d, rd, g1, g2, g3, fun _ => g4.1 hl, fun _ => rfl⟩
      · simp only [if_neg e] at hy; cases hy
  · intro i x hx hy
    rcases new i x hx with ⟨x', h1, h2, h3, h4, h5, h6⟩ | ⟨h1, h2⟩
    · rw [h4]
      by_cases e : o.ctx = some i
      · obtain ⟨oa, e1, e2, e3⟩ := H.ctx f o i ho e
        rw [h1] at e1; cases e1
        by_cases e4 : o.root = some f
        · rw [if_pos e4] at e3
          obtain ⟨d, rd, g1, g2, g3, g4⟩ := H.root f o f ho e4
          obtain ⟨d', rd', k1, k2, k3, k4⟩ := H.root i x' f h1 e3
          have := H.uniq d d' rd rd' g1 k1 g2 k2 (g3.trans k3.symm)
          subst this
          exact k4.2 (g4.1 hl)
        · rw [if_neg e4] at e3
          exact H.free i x' h1 e3
      · rw [h5, if_neg e] at hy
        exact H.free i x' h1 hy
    · subst h2; rfl
  · intro i x hx hy
    obtain ⟨x', h1, h2, h3, h4, h5, h6⟩ := hkeep i x hx (by rw [hy]; decide)
    rw [h5]; exact H.list i x' h1 (by rw [← h2]; exact hy)
  · intro i x hx hy
    obtain ⟨x', h1, h2, h3, h4, h5, h6⟩ := hkeep i x hx hy
    rw [h5, h2]; exact H.kind i x' h1 (by rw [← h2]; exact hy)
  · intro i x a hx ha
    rcases new i x hx with ⟨x', h1, h2, h3, h4, h5, h6⟩ | ⟨h1, h2⟩
    · by_cases e : i = f
      · subst e
        rw [h1] at ho; cases ho
        rw [if_pos rfl] at h6
        rw [h6] at ha; cases ha
        refine ⟨_, hnew, rfl, ?_⟩
        rw [h5, if_neg hfa]
      · rw [if_neg e] at h6
        rw [h6] at ha
        obtain ⟨oa, g1, g2, g3⟩ := H.ctx i x' a h1 ha
        have hne : o.ctx ≠ some a := fun hc => e (H.one i f x' o a h1 ho ha hc)
        obtain ⟨oa', k1, k2, k3, k4, k5, k6⟩ := old a oa g1
        rw [if_neg hne] at k5
        have hxf : x'.kind = .file := H.file i x' h1 (by rw [ha]; simp)
        rw [if_neg (hna i x' h1 (by rw [hxf]; decide))] at h5
        exact ⟨oa', k1, by rw [k2]; exact g2, by rw [k5, g3, h5]⟩
    · subst h2; cases ha
  · intro i j x y a hx hy ha hb
    have key : ∀ (i : Nat) (x : Obj), (σ.setContext f o).objs[i]? = some x → x.ctx = some a →
        (i = f ∧ a = σ.objs.length) ∨ (∃ x', σ.objs[i]? = some x' ∧ x'.ctx = some a ∧ a < σ.objs.length) := by
      intro i x hx ha
      rcases new i x hx with ⟨x', h1, h2, h3, h4, h5, h6⟩ | ⟨h1, h2⟩
      · by_cases e : i = f
        · rw [if_pos e] at h6; rw [h6] at ha; cases ha; exact .inl ⟨e, rfl⟩
        · rw [if_neg e] at h6; rw [h6] at ha
          obtain ⟨oa, g1, -⟩ := H.ctx i x' a h1 ha
          exact .inr ⟨x', h1, ha, lt_of_some g1⟩
      · subst h2; cases ha
    rcases key i x hx ha with ⟨h1, h2⟩ | ⟨x', h1, h2, h3⟩ <;> rcases key j y hy hb with ⟨g1, g2⟩ | ⟨y', g1, g2, g3⟩
    · rw [h1, g1]
    · omega
    · omega
    · exact H.one i j x' y' a h1 g1 h2 g2
  · intro i x y hx hy hz
    rcases new i x hx with ⟨x', h1, h2, h3, h4, h5, h6⟩ | ⟨h1, h2⟩
    · rw [h5] at hz
      by_cases e : o.ctx = some i
      · rw [if_pos e] at hz; cases hz
      · rw [if_neg e] at hz
        obtain ⟨g, k1, k2, k3⟩ := H.arr i x' y h1 (by rw [← h2]; exact hy) hz
        obtain ⟨g', m1, m2, m3, m4, m5, m6⟩ := old y g k1
        have hyf : y ≠ f := fun e' => by
          subst e'; rw [ho] at k1; cases k1; exact e k2
        rw [if_neg hyf] at m6
        have hgf : g.kind = .file := H.file y g k1 (by rw [k2]; simp)
        rw [if_neg (hna y g k1 (by rw [hgf]; decide))] at m5
        exact ⟨g', m1, by rw [m6]; exact k2, by rw [m5]; exact k3⟩
    · subst h2
      by_cases e : o.root = some f
      · simp only [if_pos e] at hz
        cases hz
        obtain ⟨o', m1, m2, m3, m4, m5, m6⟩ := old f o ho
        rw [if_neg hfa] at m5
        rw [if_pos rfl] at m6
        exact ⟨o', m1, by rw [m6, h1], by rw [m5]; exact e⟩
      · simp only [if_neg e] at hz; cases hz
  · intro i x hx hy
    rcases new i x hx with ⟨x', h1, h2, h3, h4, h5, h6⟩ | ⟨h1, h2⟩
    · rw [h2]
      by_cases e : i = f
      · subst e; rw [h1] at ho; cases ho; exact hk
      · rw [if_neg e] at h6; rw [h6] at hy; exact H.file i x' h1 hy
    · subst h2; exact absurd rfl hy
  · intro i x hx hy
    rcases new i x hx with ⟨x', h1, h2, h3, h4, h5, h6⟩ | ⟨h1, h2⟩
    · rw [h3]; exact H.noKids i x' h1 (by rw [← h2]; exact hy)
    · subst h2; rfl

theorem set_cases {α : Type} {l : List α} {n i : Nat} {a o : α} (h : (l.set n a)[i]? = some o) :
    (i = n ∧ o = a) ∨ (i ≠ n ∧ l[i]? = some o) := by
  rw [List.getElem?_set] at h
  split at h
  · next e =>
    split at h
    · cases h; exact .inl ⟨e.symm, rfl⟩
    · cases h
  · next e => exact .inr ⟨fun h' => e h'.symm, h⟩

/-- Replacing a reference by one to the same object. -/
theorem set_old {l : List Ref} {n : Nat} {r0 a : Ref} (h0 : l[n]? = some r0) (ht : a.tgt = r0.tgt) {i : Nat} {r : Ref}
    (h : l[i]? = some r) : ∃ r', (l.set n a)[i]? = some r' ∧ r'.tgt = r.tgt := by
  rw [List.getElem?_set]
  by_cases e : n = i
  · subst e
    rw [h0] at h; cases h
    exact ⟨a, by rw [if_pos rfl, if_pos (lt_of_some h0)], ht⟩
  · exact ⟨r, by rw [if_neg e]; exact h, rfl⟩

theorem set_tgt {l : List Ref} {n : Nat} {r0 a : Ref} (h0 : l[n]? = some r0) (ht : a.tgt = r0.tgt) {i : Nat} {r : Ref}
    (h : (l.set n a)[i]? = some r) : ∃ r', l[i]? = some r' ∧ r'.tgt = r.tgt := by
  rcases set_cases h with ⟨rfl, rfl⟩ | ⟨-, h⟩
  · exact ⟨r0, h0, ht.symm⟩
  · exact ⟨r, h, rfl⟩

/-- Taking an object from another keeps the invariant. -/
theorem Inv.take {p : Past} {σ : State} (H : Inv p σ) {h : Nat} {r : Ref} {o : Obj} {c : Nat}
    (hr : σ.refs[h]? = some r) (ho : σ.objs[r.tgt]? = some o) (hc : c ∈ o.kids) :
    Inv { p with dep := p.dep ++ [(p.dep[h]?).join] } { σ with refs := σ.refs ++ [⟨c, true, false⟩] } := by
  obtain ⟨o1, h1, h2, h3⟩ := H.tgt h r hr
  rw [ho] at h1; cases h1
  obtain ⟨oc, c1, c2, c3⟩ := H.kids _ o c ho hc
  have hd : ∀ d : Nat, (p.dep ++ [(p.dep[h]?).join])[d]? = some (some d) → p.dep[d]? = some (some d) := by
    intro d hd
    rcases one_cases hd with hd | ⟨e1, e2⟩
    · exact hd
    · rcases h3 with ⟨h3, -⟩ | ⟨d', rd, h3, h4, h5, h6⟩
      · rw [h3] at e2; cases e2
      · rw [h3] at e2
        simp at e2
        have := lt_of_some h5
        omega
  have hrf : ∀ (d : Nat) (rd : Ref), p.dep[d]? = some (some d) → (σ.refs ++ [⟨c, true, false⟩])[d]? = some rd → σ.refs[d]? = some rd := by
    intro d rd g1 g2
    rcases one_cases g2 with g2 | ⟨g3, -⟩
    · exact g2
    · have := lt_of_some g1; rw [H.len] at this; omega
  refine ⟨?_, ?_, ?_, H.kids, ?_, H.free, ?_, H.gone, ?_, ?_, H.list, H.kind, H.ctx, H.one, H.arr, H.file, H.noKids⟩
  · simp [H.len]
  · intro k r' hr'
    rcases one_cases hr' with hr' | ⟨rfl, rfl⟩
    · obtain ⟨o, g1, g2, g3⟩ := H.tgt k r' hr'
      refine ⟨o, g1, g2, ?_⟩
      rcases g3 with ⟨g3, g4⟩ | ⟨d, rd, g3, g4, g5, g6⟩
      · exact .inl ⟨app_old g3, g4⟩
      · exact .inr ⟨d, rd, app_old g3, app_old g4, app_old g5, g6⟩
    · refine ⟨oc, c1, c2, ?_⟩
      have hn : (p.dep ++ [(p.dep[h]?).join])[σ.refs.length]? = some (p.dep[h]?).join := by rw [← H.len]; exact one_new
      rcases h3 with ⟨h3, h4⟩ | ⟨d', rd, h3, h4, h5, h6⟩
      · exact .inl ⟨by rw [hn, h3]; rfl, c3.trans h4⟩
      · exact .inr ⟨d', rd, by rw [hn, h3]; rfl, app_old h4, app_old h5, c3.trans h6⟩
  · intro d e rd re g1 g2 g3 g4 g5
    exact H.uniq d e rd re (hd d g1) (hd e g2) (hrf d rd (hd d g1) g3) (hrf e re (hd e g2) g4) g5
  · intro i x y hx hy
    obtain ⟨d, rd, g1, g2, g3, g4⟩ := H.root i x y hx hy
    exact ⟨d, rd, app_old g1, app_old g2, g3, g4⟩
  · intro k r' hr'
    rcases one_cases hr' with hr' | ⟨g1, g2⟩
    · rw [H.owns k r' hr']
      exact ⟨fun g => ⟨app_old g.1, g.2⟩, fun g => ⟨hd k g.1, g.2⟩⟩
    · subst g2
      constructor
      · intro g; cases g
      · rintro ⟨g, -⟩
        have := lt_of_some (hd k g); rw [H.len] at this; omega
  · intro k r' hr'
    rcases one_cases hr' with hr' | ⟨g1, g2⟩
    · exact H.lost k r' hr'
    · subst g1 g2
      constructor
      · intro g; cases g
      · intro g; have := H.old _ g; omega
  · intro k hk
    have := H.old k hk
    simp; omega

/-- Dropping a reference keeps the invariant. -/
theorem Inv.lose {p : Past} {σ : State} (H : Inv p σ) {h t : Nat} {w : Bool} (hr : σ.refs[h]? = some ⟨t, true, w⟩) :
    Inv { p with lost := h :: p.lost } { σ with refs := σ.refs.set h ⟨t, false, w⟩ } := by
  refine ⟨?_, ?_, ?_, H.kids, ?_, H.free, ?_, fun k hk => .tail _ (H.gone k hk), ?_, ?_, H.list, H.kind, H.ctx, H.one, H.arr, H.file,
    H.noKids⟩
  · simp [H.len]
  · intro k r' hr'
    obtain ⟨r, g1, g2⟩ := set_tgt hr (a := ⟨t, false, w⟩) rfl hr'
    obtain ⟨o, g3, g4, g5⟩ := H.tgt k r g1
    rw [← g2]
    refine ⟨o, g3, g4, ?_⟩
    rcases g5 with g5 | ⟨d, rd, g5, g6, g7, g8⟩
    · exact .inl g5
    · obtain ⟨rd', g9, g10⟩ := set_old hr (a := ⟨t, false, w⟩) rfl g6
      exact .inr ⟨d, rd', g5, g9, g7, by rw [g10]; exact g8⟩
  · intro d e rd re g1 g2 g3 g4 g5
    obtain ⟨rd', g6, g7⟩ := set_tgt hr (a := ⟨t, false, w⟩) rfl g3
    obtain ⟨re', g8, g9⟩ := set_tgt hr (a := ⟨t, false, w⟩) rfl g4
    exact H.uniq d e rd' re' g1 g2 g6 g8 (by rw [g7, g9, g5])
  · intro i x y hx hy
    obtain ⟨d, rd, g1, g2, g3, g4⟩ := H.root i x y hx hy
    obtain ⟨rd', g5, g6⟩ := set_old hr (a := ⟨t, false, w⟩) rfl g2
    exact ⟨d, rd', g1, g5, g6.trans g3, g4⟩
  · intro k r' hr'
    rcases set_cases hr' with ⟨rfl, rfl⟩ | ⟨-, hr'⟩
    · exact H.owns k ⟨t, true, w⟩ hr
    · exact H.owns k r' hr'
  · intro k r' hr'
    rcases set_cases hr' with ⟨rfl, rfl⟩ | ⟨hne, hr'⟩
    · simp
    · rw [H.lost k r' hr']; simp [hne]
  · intro k hk
    rw [List.length_set]
    rcases List.mem_cons.1 hk with rfl | hk
    · exact lt_of_some hr
    · exact H.old k hk

/-- Only the members of `gone` matter. -/
theorem Inv.congr {p : Past} {σ : State} (H : Inv p σ) {g : List Nat} (hg : ∀ h, h ∈ g ↔ h ∈ p.gone) : Inv { p with gone := g } σ := by
  refine ⟨H.len, H.tgt, H.uniq, H.kids, ?_, H.free, ?_, fun h hh => H.gone h ((hg h).1 hh), H.lost, H.old, H.list, H.kind, H.ctx, H.one,
    H.arr, H.file, H.noKids⟩
  · intro i x y hx hy
    obtain ⟨d, rd, g1, g2, g3, g4⟩ := H.root i x y hx hy
    exact ⟨d, rd, g1, g2, g3, by rw [g4]; exact not_congr (hg d).symm⟩
  · intro h r hr
    rw [H.owns h r hr]
    exact and_congr_right fun _ => not_congr (hg h).symm

/-- A reference that the program has dropped and that owns nothing goes away. -/
theorem Inv.forget {p : Past} {σ : State} (H : Inv p σ) {h : Nat} {r : Ref} (hr : σ.refs[h]? = some r) (hw : r.owns = false)
    (hl : h ∈ p.lost) : Inv { p with gone := h :: p.gone } σ := by
  have key : ∀ d, p.dep[d]? = some (some d) → (d ∈ h :: p.gone ↔ d ∈ p.gone) := by
    intro d hd
    constructor
    · intro hm
      rcases List.mem_cons.1 hm with rfl | hm
      · by_cases hg : d ∈ p.gone
        · exact hg
        · have := (H.owns d r hr).2 ⟨hd, hg⟩
          rw [hw] at this; cases this
      · exact hm
    · exact fun hm => .tail _ hm
  refine ⟨H.len, H.tgt, H.uniq, H.kids, ?_, H.free, ?_, ?_, H.lost, H.old, H.list, H.kind, H.ctx, H.one, H.arr, H.file, H.noKids⟩
  · intro i x y hx hy
    obtain ⟨d, rd, g1, g2, g3, g4⟩ := H.root i x y hx hy
    exact ⟨d, rd, g1, g2, g3, by rw [g4]; exact not_congr (key d g1).symm⟩
  · intro k r' hr'
    rw [H.owns k r' hr']
    exact and_congr_right fun hk => not_congr (key k hk).symm
  · intro k hk
    rcases List.mem_cons.1 hk with rfl | hk
    · exact hl
    · exact H.gone k hk

theorem destroy_cases {σ : State} {x i : Nat} {o : Obj} (h : (σ.destroy x).objs[i]? = some o) :
    ∃ o', σ.objs[i]? = some o' ∧ o = if o'.root = some x then { o' with live := false } else o' := by
  simp only [State.destroy, List.getElem?_map, Option.map_eq_some_iff] at h
  obtain ⟨o', h1, h2⟩ := h
  exact ⟨o', h1, h2.symm⟩

theorem destroy_old {σ : State} {x i : Nat} {o : Obj} (h : σ.objs[i]? = some o) :
    (σ.destroy x).objs[i]? = some (if o.root = some x then { o with live := false } else o) := by
  simp [State.destroy, h]

theorem dead_frame (o : Obj) (x : Nat) : ∀ o', o' = (if o.root = some x then { o with live := false } else o) →
    o'.kind = o.kind ∧ o'.kids = o.kids ∧ o'.root = o.root ∧ o'.ctx = o.ctx := by
  intro o' h
  subst h
  split <;> exact ⟨rfl, rfl, rfl, rfl⟩

/-- The destructor of a reference that owns an object. -/
theorem Inv.destroy {p : Past} {σ : State} (H : Inv p σ) {h : Nat} {r : Ref} (hr : σ.refs[h]? = some r) (hw : r.owns = true)
    (hl : h ∈ p.lost) :
    Inv { p with gone := h :: p.gone } (({ σ with refs := σ.refs.set h { r with owns := false } } : State).destroy r.tgt) := by
  obtain ⟨hh1, hh2⟩ := (H.owns h r hr).1 hw
  let ρ : State := { σ with refs := σ.refs.set h { r with owns := false } }
  have new : ∀ (i : Nat) (o : Obj), (ρ.destroy r.tgt).objs[i]? = some o → ∃ o', σ.objs[i]? = some o' ∧ o.kind = o'.kind ∧
      o.kids = o'.kids ∧ o.root = o'.root ∧ o.ctx = o'.ctx ∧ (o.live = if o'.root = some r.tgt then false else o'.live) := by
    intro i o ho
    obtain ⟨o', h1, h2⟩ := destroy_cases ho
    obtain ⟨k1, k2, k3, k4⟩ := dead_frame o' r.tgt o h2
    refine ⟨o', h1, k1, k2, k3, k4, ?_⟩
    rw [h2]; split <;> rfl
  have old : ∀ (i : Nat) (o : Obj), σ.objs[i]? = some o → ∃ o', (ρ.destroy r.tgt).objs[i]? = some o' ∧ o'.kind = o.kind ∧
      o'.kids = o.kids ∧ o'.root = o.root ∧ o'.ctx = o.ctx := by
    intro i o ho
    exact ⟨_, destroy_old (σ := ρ) ho, dead_frame o r.tgt _ rfl⟩
  have hset : ∀ (i : Nat) (r' : Ref), (ρ.destroy r.tgt).refs[i]? = some r' → ∃ r'', σ.refs[i]? = some r'' ∧ r''.tgt = r'.tgt :=
    fun i r' hr' => set_tgt hr (a := { r with owns := false }) rfl hr'
  have hset' : ∀ (i : Nat) (r' : Ref), σ.refs[i]? = some r' → ∃ r'', (ρ.destroy r.tgt).refs[i]? = some r'' ∧ r''.tgt = r'.tgt :=
    fun i r' hr' => set_old hr (a := { r with owns := false }) rfl hr'
  refine ⟨?_, ?_, ?_, ?_, ?_, ?_, ?_, ?_, ?_, ?_, ?_, ?_, ?_, ?_, ?_, ?_, ?_⟩
  · simp [State.destroy, H.len]
  · intro k r' hr'
    obtain ⟨r'', g1, g2⟩ := hset k r' hr'
    obtain ⟨o, g3, g4, g5⟩ := H.tgt k r'' g1
    obtain ⟨o', g6, g7, -, g8, -⟩ := old _ o g3
    rw [g2] at g6
    refine ⟨o', g6, by rw [g7]; exact g4, ?_⟩
    rw [g8]
    rcases g5 with g5 | ⟨d, rd, g9, g10, g11, g12⟩
    · exact .inl g5
    · obtain ⟨rd', g13, g14⟩ := hset' d rd g10
      exact .inr ⟨d, rd', g9, g13, g11, by rw [g14]; exact g12⟩
  · intro d e rd re g1 g2 g3 g4 g5
    obtain ⟨rd', g6, g7⟩ := hset d rd g3
    obtain ⟨re', g8, g9⟩ := hset e re g4
    exact H.uniq d e rd' re' g1 g2 g6 g8 (by rw [g7, g9, g5])
  · intro i o c ho hc
    obtain ⟨o', g1, g2, g3, g4, -⟩ := new i o ho
    obtain ⟨y, g5, g6, g7⟩ := H.kids i o' c g1 (by rw [← g3]; exact hc)
    obtain ⟨y', g8, g9, -, g10, -⟩ := old c y g5
    exact ⟨y', g8, by rw [g9]; exact g6, by rw [g10, g7, g4]⟩
  · intro i o y ho hy
    obtain ⟨o', g1, g2, g3, g4, g5, g6⟩ := new i o ho
    rw [g4] at hy
    obtain ⟨d, rd, k1, k2, k3, k4⟩ := H.root i o' y g1 hy
    obtain ⟨rd', k5, k6⟩ := hset' d rd k2
    refine ⟨d, rd', k1, k5, k6.trans k3, ?_⟩
    rw [g6]
    by_cases e : y = r.tgt
    · have := H.uniq d h rd r k1 hh1 k2 hr (k3.trans e)
      subst this
      rw [if_pos (by rw [hy, e])]
      simp
    · rw [if_neg (by rw [hy]; simpa using e), k4]
      have hne : d ≠ h := fun e' => by
        subst e'; rw [hr] at k2; cases k2; exact e k3.symm
      simp [hne]
  · intro i o ho hy
    obtain ⟨o', g1, g2, g3, g4, g5, g6⟩ := new i o ho
    rw [g4] at hy
    rw [g6, if_neg (by rw [hy]; simp)]
    exact H.free i o' g1 hy
  · intro k r' hr'
    rcases set_cases hr' with ⟨rfl, rfl⟩ | ⟨hne, hr'⟩
    · simp
    · rw [H.owns k r' hr']; simp [hne]
  · intro k hk
    rcases List.mem_cons.1 hk with rfl | hk
    · exact hl
    · exact H.gone k hk
  · intro k r' hr'
    rcases set_cases hr' with ⟨rfl, rfl⟩ | ⟨hne, hr'⟩
    · exact H.lost k r hr
    · exact H.lost k r' hr'
  · intro k hk
    have := H.old k hk
    simpa [State.destroy] using this
  · intro i o ho hy
    obtain ⟨o', g1, g2, g3, g4, g5, g6⟩ := new i o ho
    rw [g4]; exact H.list i o' g1 (by rw [← g2]; exact hy)
  · intro i o ho hy
    obtain ⟨o', g1, g2, g3, g4, g5, g6⟩ := new i o ho
    rw [g4, g2]; exact H.kind i o' g1 (by rw [← g2]; exact hy)
  · intro i o a ho ha
    obtain ⟨o', g1, g2, g3, g4, g5, g6⟩ := new i o ho
    obtain ⟨oa, k1, k2, k3⟩ := H.ctx i o' a g1 (by rw [← g5]; exact ha)
    obtain ⟨oa', k4, k5, -, k6, -⟩ := old a oa k1
    exact ⟨oa', k4, by rw [k5]; exact k2, by rw [k6, k3, g4]⟩
  · intro i j o o' a ho ho' ha ha'
    obtain ⟨x, g1, g2, g3, g4, g5, g6⟩ := new i o ho
    obtain ⟨y, k1, k2, k3, k4, k5, k6⟩ := new j o' ho'
    exact H.one i j x y a g1 k1 (by rw [← g5]; exact ha) (by rw [← k5]; exact ha')
  · intro i o y ho hy hz
    obtain ⟨x, g1, g2, g3, g4, g5, g6⟩ := new i o ho
    obtain ⟨f, k1, k2, k3⟩ := H.arr i x y g1 (by rw [← g2]; exact hy) (by rw [← g4]; exact hz)
    obtain ⟨f', m1, -, -, m2, m3⟩ := old y f k1
    exact ⟨f', m1, by rw [m3]; exact k2, by rw [m2]; exact k3⟩
  · intro i o ho hy
    obtain ⟨x, g1, g2, g3, g4, g5, g6⟩ := new i o ho
    rw [g2]; exact H.file i x g1 (by rw [← g5]; exact hy)
  · intro i o ho hy
    obtain ⟨x, g1, g2, g3, g4, g5, g6⟩ := new i o ho
    rw [g3]; exact H.noKids i x g1 (by rw [← g2]; exact hy)

/-- A run of the garbage collector keeps the invariant. -/
theorem Inv.collect : ∀ (which : List Nat) {p : Past} {σ : State}, Inv p σ →
    Inv { p with gone := which.filter (· ∈ p.lost) ++ p.gone } (σ.collect which)
  | [], p, σ, H => H
  | h :: hs, p, σ, H => by
    unfold State.collect
    have fin : ∀ (τ : State), Inv { p with gone := (if h ∈ p.lost then [h] else []) ++ p.gone } τ →
        Inv { p with gone := (h :: hs).filter (· ∈ p.lost) ++ p.gone } (τ.collect hs) := by
      intro τ Hτ
      refine (Inv.collect hs Hτ).congr fun k => ?_
      by_cases hl : h ∈ p.lost
      · simp only [List.filter_cons, hl, decide_true, if_true, List.mem_append, List.mem_cons, List.mem_filter, List.not_mem_nil, or_false]
        constructor
        · rintro ((g | g) | g)
          · exact .inr (.inl g)
          · exact .inl g
          · exact .inr (.inr g)
        · rintro (g | g | g)
          · exact .inl (.inr g)
          · exact .inl (.inl g)
          · exact .inr g
      · simp [hl]
    refine fin _ ?_
    cases hr : σ.refs[h]? with
    | none =>
      have hl : h ∉ p.lost := fun hl => by
        obtain ⟨r, h2⟩ := some_of_lt (H.old h hl)
        rw [hr] at h2; cases h2
      rw [if_neg hl]; exact H
    | some r =>
      by_cases hl : h ∈ p.lost
      · rw [if_pos hl]
        cases hw : r.owns with
        | false =>
          simp only [hw]
          rw [if_neg (by simp)]
          exact H.forget hr hw hl
        | true =>
          simp only [hw]
          rw [if_pos ⟨(H.lost h r hr).2 hl, trivial⟩]
          exact H.destroy hr hw hl
      · rw [if_neg hl]
        show Inv _ (if _ then _ else _)
        rw [if_neg fun hk => hl ((H.lost h r hr).1 hk.1)]
        exact H

/-! ### Runs without the garbage collector -/

/-- The object as it is if nothing is freed. -/
def Obj.revive (o : Obj) : Obj := { o with live := true }

/-- What a reference is to the program. -/
def Ref.seen (r : Ref) : Nat × Bool := (r.tgt, r.kept)

/-- The first state is that of a run in which the collector has not run, the second one in which it
may have. -/
structure Rel (σ τ : State) : Prop where
  objs : σ.objs = τ.objs.map Obj.revive
  refs : σ.refs.map Ref.seen = τ.refs.map Ref.seen

theorem rel_start : Rel start start := ⟨rfl, rfl⟩

theorem Rel.len {σ τ : State} (R : Rel σ τ) : σ.objs.length = τ.objs.length := by rw [R.objs]; simp

theorem Rel.ref {σ τ : State} (R : Rel σ τ) {h : Nat} {r : Ref} (hr : σ.refs[h]? = some r) :
    ∃ r', τ.refs[h]? = some r' ∧ r'.tgt = r.tgt ∧ r'.kept = r.kept := by
  have h1 : (σ.refs.map Ref.seen)[h]? = some r.seen := by rw [List.getElem?_map, hr]; rfl
  rw [R.refs, List.getElem?_map, Option.map_eq_some_iff] at h1
  obtain ⟨r', h2, h3⟩ := h1
  simp only [Ref.seen, Prod.mk.injEq] at h3
  exact ⟨r', h2, h3⟩

theorem use_ok {σ : State} {h i : Nat} {o : Obj} (hu : σ.use h = .ok (i, o)) :
    ∃ r, σ.refs[h]? = some r ∧ r.kept = true ∧ r.tgt = i ∧ σ.objs[i]? = some o ∧ o.live = true := by
  unfold State.use at hu
  split at hu
  · cases hu
  · next r hr =>
    split at hu
    · next hk =>
      split at hu
      · cases hu
      · next o' ho =>
        split at hu
        · next hl =>
          cases hu
          exact ⟨r, hr, hk, rfl, ho, hl⟩
        · cases hu
    · cases hu

/-- An object can be used as long as what it depends on is not collected, and not after. -/
theorem use_sim {p : Past} {σ τ : State} (H : Inv p τ) (R : Rel σ τ) {h i : Nat} {o : Obj} (hu : σ.use h = .ok (i, o)) :
    ((∀ d, p.dep[h]? = some (some d) → d ∉ p.gone) → ∃ o', τ.use h = .ok (i, o') ∧ o = o'.revive) ∧
    (∀ d, p.dep[h]? = some (some d) → d ∈ p.gone → τ.use h = .error .crash) := by
  obtain ⟨r, h1, h2, h3, h4, h5⟩ := use_ok hu
  obtain ⟨r', g1, g2, g3⟩ := R.ref h1
  rw [R.objs, List.getElem?_map, Option.map_eq_some_iff] at h4
  obtain ⟨o', g4, g5⟩ := h4
  obtain ⟨o1, k1, k2, k3⟩ := H.tgt h r' g1
  rw [g2, h3, g4] at k1
  cases k1
  have hev : τ.use h = if o'.live then .ok (i, o') else .error .crash := by
    unfold State.use
    rw [g1]
    simp only [g3, h2, if_true]
    rw [g2, h3, g4]
  rcases k3 with ⟨k3, k4⟩ | ⟨d, rd, k3, k4, k5, k6⟩
  · refine ⟨fun _ => ⟨o', by rw [hev, H.free i o' g4 k4]; rfl, g5.symm⟩, fun d hd => ?_⟩
    rw [k3] at hd; cases hd
  · obtain ⟨d', rd', m1, m2, m3, m4⟩ := H.root i o' _ g4 k6
    have := H.uniq d d' rd rd' k5 m1 k4 m2 m3.symm
    subst this
    constructor
    · intro hs
      exact ⟨o', by rw [hev, m4.2 (hs d k3)]; rfl, g5.symm⟩
    · intro e he hg
      rw [k3] at he; cases he
      cases hl : o'.live with
      | true => exact absurd hg (m4.1 hl)
      | false => rw [hev, hl]; rfl

theorem fileObjs_revive (L : Lib) (n root : Nat) (b : Bytes) : (fileObjs L n root b).map Obj.revive = fileObjs L n root b := by
  simp [fileObjs, Obj.revive, Function.comp_def]

theorem resultObjs_revive (n : Nat) (vs : List Bytes) : (resultObjs n vs).map Obj.revive = resultObjs n vs := by
  simp [resultObjs, Obj.revive, Function.comp_def]

theorem modify_map {α β : Type} (g : α → β) (f : α → α) (f' : β → β) (hf : ∀ x, f' (g x) = g (f x)) :
    ∀ (l : List α) (n : Nat), (l.map g).modify n f' = (l.modify n f).map g
  | [], n => by simp
  | x :: l, 0 => by simp [List.modify_zero_cons, hf]
  | x :: l, n + 1 => by simp [List.modify_succ_cons, modify_map g f f' hf l n]

theorem Rel.newFile {σ τ : State} (R : Rel σ τ) (L : Lib) (b : Bytes) : Rel (σ.newFile L b) (τ.newFile L b) := by
  refine ⟨?_, ?_⟩
  · simp only [State.newFile, List.map_append, fileObjs_revive, R.len]; rw [R.objs]
  · simp only [State.newFile, List.map_append, R.refs, R.len]

theorem Rel.newList {σ τ : State} (R : Rel σ τ) : Rel σ.newList τ.newList := by
  refine ⟨?_, ?_⟩
  · simp only [State.newList, List.map_append, R.len]; rw [R.objs]; rfl
  · simp only [State.newList, List.map_append, R.refs, R.len]

theorem Rel.newResult {σ τ : State} (R : Rel σ τ) (vs : List Bytes) : Rel (σ.newResult vs) (τ.newResult vs) := by
  refine ⟨?_, ?_⟩
  · simp only [State.newResult, List.map_append, resultObjs_revive, R.len]; rw [R.objs]
  · simp only [State.newResult, List.map_append, R.refs, R.len]

theorem Rel.addFile {σ τ : State} (R : Rel σ τ) (L : Lib) (l : Nat) (b : Bytes) : Rel (σ.addFile L l b) (τ.addFile L l b) := by
  refine ⟨?_, R.refs⟩
  simp only [State.addFile, List.map_append, fileObjs_revive, R.len]
  rw [R.objs, modify_map Obj.revive (·.push τ.objs.length) (·.push τ.objs.length) fun _ => rfl]

theorem Rel.setContext {σ τ : State} (R : Rel σ τ) (f : Nat) (o : Obj) : Rel (σ.setContext f o.revive) (τ.setContext f o) := by
  refine ⟨?_, R.refs⟩
  simp only [State.setContext, List.map_append, R.len]
  rw [R.objs]
  show (match o.ctx with | none => _ | some a => _ : List Obj).modify _ _ ++ _ = _
  cases o.ctx with
  | none =>
    simp only
    rw [modify_map Obj.revive (fun x => { x with ctx := some τ.objs.length }) (fun x => { x with ctx := some τ.objs.length }) fun _ => rfl]
    rfl
  | some a =>
    simp only
    rw [modify_map Obj.revive (fun x => { x with root := none }) (fun x => { x with root := none }) fun _ => rfl,
      modify_map Obj.revive (fun x => { x with ctx := some τ.objs.length }) (fun x => { x with ctx := some τ.objs.length }) fun _ => rfl]
    rfl

theorem destroy_revive (σ : State) (x : Nat) : (σ.destroy x).objs.map Obj.revive = σ.objs.map Obj.revive := by
  simp only [State.destroy, List.map_map]
  refine List.map_congr_left fun o _ => ?_
  simp only [Function.comp_apply]
  split <;> rfl

/-- The collector changes nothing that the program sees, except that objects are freed. -/
theorem Rel.collect {σ : State} : ∀ (which : List Nat) {τ : State}, Rel σ τ → Rel σ (τ.collect which)
  | [], _, R => R
  | h :: hs, τ, R => by
    unfold State.collect
    refine Rel.collect hs ?_
    cases hr : τ.refs[h]? with
    | none => exact R
    | some r =>
      simp only
      split
      · refine ⟨?_, ?_⟩
        · rw [destroy_revive]; exact R.objs
        · show _ = (τ.refs.set h { r with owns := false }).map Ref.seen
          rw [R.refs, List.map_set]
          refine List.ext_getElem? fun i => ?_
          rw [List.getElem?_set]
          split
          · next e =>
            subst e
            rw [List.getElem?_map, hr, if_pos (by simpa using lt_of_some hr)]; rfl
          · rfl
      · exact R

/-- The condition of `Sound` on one operation. -/
def Fresh (p : Past) (op : Op) : Prop := ∀ h ∈ op.uses, ∀ d, p.dep[h]? = some (some d) → d ∉ p.gone

theorem bind_ok {α β : Type} {x : Except Fault α} {f : α → Except Fault β} {b : β} (h : (x >>= f) = .ok b) : ∃ a, x = .ok a ∧ f a = .ok b := by
  cases x with
  | error e => cases h
  | ok a => exact ⟨a, rfl, h⟩

theorem not_fresh1 {p : Past} {h : Nat} (hn : ¬ ∀ d, p.dep[h]? = some (some d) → d ∉ p.gone) : ∃ d, p.dep[h]? = some (some d) ∧ d ∈ p.gone := by
  simpa using hn

/-- One operation with and without earlier runs of the collector. -/
theorem step_sim {L : Lib} {p : Past} {σ τ : State} (H : Inv p τ) (R : Rel σ τ) {op : Op} (hop : op.isGc = false) {σ' : State}
    {r : List Seen} (hs : step L σ op = .ok (σ', r)) :
    (Fresh p op → ∃ τ', step L τ op = .ok (τ', r) ∧ Rel σ' τ' ∧ Inv (p.next op) τ') ∧
    (¬ Fresh p op → step L τ op = .error .crash) := by
  cases op with
  | gc which => cases hop
  | file b =>
    cases hs
    refine ⟨fun _ => ⟨_, rfl, R.newFile L b, ?_⟩, fun h => absurd (fun _ h => nomatch h) h⟩
    exact H.growRef true (block_file L _ _ b) ⟨.inr rfl, rfl⟩
  | list =>
    cases hs
    refine ⟨fun _ => ⟨_, rfl, R.newList, ?_⟩, fun h => absurd (fun _ h => nomatch h) h⟩
    exact H.growRef true (block_list _ _) ⟨.inl rfl, rfl⟩
  | add l b =>
    obtain ⟨⟨i, o⟩, hu, hs⟩ := bind_ok hs
    have U := use_sim H R hu
    simp only at hs
    split at hs
    next hk =>
      cases hs
      constructor
      · intro hf
        obtain ⟨o', h1, h2⟩ := U.1 (hf l (.head _))
        obtain ⟨r', -, -, -, h3, h4⟩ := use_ok h1
        subst h2
        refine ⟨τ.addFile L i b, ?_, R.addFile L i b, H.addFile L b h3 h4 hk⟩
        show (τ.use l >>= _) = _
        rw [h1]
        exact if_pos hk
      · intro hf
        obtain ⟨d, h1, h2⟩ := not_fresh1 (h := l) fun h => hf fun k hk => by
          rw [List.mem_singleton.1 hk]; exact h
        show (τ.use l >>= _) = _
        rw [U.2 d h1 h2]; rfl
    next => cases hs
  | take h k =>
    obtain ⟨⟨i, o⟩, hu, hs⟩ := bind_ok hs
    have U := use_sim H R hu
    simp only at hs
    split at hs
    next => cases hs
    next c hc =>
      cases hs
      constructor
      · intro hf
        obtain ⟨o', h1, h2⟩ := U.1 (hf h (.head _))
        obtain ⟨r', h5, -, h6, h3, h4⟩ := use_ok h1
        subst h2 h6
        refine ⟨{ τ with refs := τ.refs ++ [⟨c, true, false⟩] }, ?_, ⟨R.objs, by simp [R.refs]⟩, H.take h5 h3 (List.mem_of_getElem? hc)⟩
        show (τ.use h >>= _) = _
        rw [h1]
        show (match o'.kids[k]? with | none => _ | some c => _ : Except Fault (State × List Seen)) = _
        rw [show o'.kids[k]? = some c from hc]
        rfl
      · intro hf
        obtain ⟨d, h1, h2⟩ := not_fresh1 (h := h) fun h' => hf fun k hk => by
          rw [List.mem_singleton.1 hk]; exact h'
        show (τ.use h >>= _) = _
        rw [U.2 d h1 h2]; rfl
  | diff h h' =>
    obtain ⟨⟨i, o⟩, hu, hs⟩ := bind_ok hs
    obtain ⟨⟨i', o'⟩, hu', hs⟩ := bind_ok hs
    have U := use_sim H R hu
    have U' := use_sim H R hu'
    simp only at hs
    split at hs
    next hk =>
      cases hs
      constructor
      · intro hf
        obtain ⟨x, h1, h2⟩ := U.1 (hf h (.head _))
        obtain ⟨x', h1', h2'⟩ := U'.1 (hf h' (.tail _ (.head _)))
        subst h2 h2'
        refine ⟨τ.newResult (L.deltas x.val x'.val), ?_, R.newResult _, H.growRef false (block_result _ _) ⟨rfl, rfl⟩⟩
        show (τ.use h >>= _) = _
        rw [h1]
        show (τ.use h' >>= _) = _
        rw [h1']
        exact if_pos hk
      · intro hf
        show (τ.use h >>= _) = _
        by_cases hfh : ∀ d, p.dep[h]? = some (some d) → d ∉ p.gone
        · obtain ⟨x, h1, -⟩ := U.1 hfh
          obtain ⟨d, h3, h4⟩ := not_fresh1 (h := h') fun h2 => hf fun k hk => by
            rcases List.mem_cons.1 hk with rfl | hk
            · exact hfh
            · rw [List.mem_singleton.1 hk]; exact h2
          rw [h1]
          show (τ.use h' >>= _) = _
          rw [U'.2 d h3 h4]; rfl
        · obtain ⟨d, h3, h4⟩ := not_fresh1 hfh
          rw [U.2 d h3 h4]; rfl
    next => cases hs
  | analyze l =>
    obtain ⟨⟨i, o⟩, hu, hs⟩ := bind_ok hs
    have U := use_sim H R hu
    simp only at hs
    split at hs
    next hk =>
      cases hs
      constructor
      · intro hf
        obtain ⟨o', h1, h2⟩ := U.1 (hf l (.head _))
        subst h2
        have hv : ∀ c : Nat, σ.objs[c]?.map (·.val) = τ.objs[c]?.map (·.val) := by
          intro c
          rw [R.objs, List.getElem?_map]
          cases τ.objs[c]? <;> rfl
        refine ⟨τ.newResult (L.totals (o'.kids.filterMap fun c => τ.objs[c]?.map (·.val))), ?_, ?_,
          H.growRef false (block_result _ _) ⟨rfl, rfl⟩⟩
        · show (τ.use l >>= _) = _
          rw [h1]
          exact if_pos hk
        · simp only [hv]
          exact R.newResult _
      · intro hf
        obtain ⟨d, h1, h2⟩ := not_fresh1 (h := l) fun h => hf fun k hk => by
          rw [List.mem_singleton.1 hk]; exact h
        show (τ.use l >>= _) = _
        rw [U.2 d h1 h2]; rfl
    next => cases hs
  | context h =>
    obtain ⟨⟨i, o⟩, hu, hs⟩ := bind_ok hs
    have U := use_sim H R hu
    simp only at hs
    split at hs
    next hk =>
      cases hs
      constructor
      · intro hf
        obtain ⟨o', h1, h2⟩ := U.1 (hf h (.head _))
        obtain ⟨r', -, -, -, h3, h4⟩ := use_ok h1
        subst h2
        refine ⟨τ.setContext i o', ?_, R.setContext i o', H.setContext h3 h4 hk⟩
        show (τ.use h >>= _) = _
        rw [h1]
        exact if_pos hk
      · intro hf
        obtain ⟨d, h1, h2⟩ := not_fresh1 (h := h) fun h' => hf fun k hk => by
          rw [List.mem_singleton.1 hk]; exact h'
        show (τ.use h >>= _) = _
        rw [U.2 d h1 h2]; rfl
    next => cases hs
  | read h =>
    obtain ⟨⟨i, o⟩, hu, hs⟩ := bind_ok hs
    have U := use_sim H R hu
    cases hs
    constructor
    · intro hf
      obtain ⟨o', h1, h2⟩ := U.1 (hf h (.head _))
      subst h2
      refine ⟨τ, ?_, R, H⟩
      show (τ.use h >>= _) = _
      rw [h1]; rfl
    · intro hf
      obtain ⟨d, h1, h2⟩ := not_fresh1 (h := h) fun h' => hf fun k hk => by
        rw [List.mem_singleton.1 hk]; exact h'
      show (τ.use h >>= _) = _
      rw [U.2 d h1 h2]; rfl
  | lose h =>
    refine ⟨fun _ => ?_, fun h => absurd (fun _ h => nomatch h) h⟩
    simp only [step] at hs
    split at hs
    next t w hr =>
      cases hs
      obtain ⟨⟨t', k', w'⟩, h1, h2, h3⟩ := R.ref hr
      simp only at h2 h3
      subst h2 h3
      refine ⟨{ τ with refs := τ.refs.set h ⟨t', false, w'⟩ }, ?_, ⟨R.objs, ?_⟩, H.lose h1⟩
      · simp only [step]; rw [h1]
      · simp only [List.map_set, R.refs]; rfl
    next => cases hs

/-- A history with and without the runs of the collector. -/
theorem run_sim {L : Lib} : ∀ (ops : List Op) {p : Past} {σ τ : State}, Inv p τ → Rel σ τ → ∀ {σ' : State} {r : List Seen},
    run L σ (ops.filter fun op => !op.isGc) = .ok (σ', r) →
    (Sound p ops → ∃ τ', run L τ ops = .ok (τ', r) ∧ Rel σ' τ' ∧ Inv (ops.foldl Past.next p) τ') ∧
    (¬ Sound p ops → run L τ ops = .error .crash)
  | [], p, σ, τ, H, R, σ', r, hr => by
    cases hr
    exact ⟨fun _ => ⟨τ, rfl, R, H⟩, fun h => absurd trivial h⟩
  | op :: ops, p, σ, τ, H, R, σ', r, hr => by
    cases hop : op.isGc with
    | true =>
      cases op with
      | gc which =>
        rw [List.filter_cons, hop] at hr
        have ih := run_sim ops (H.collect which) (R.collect which) hr
        have hrun : run L τ (.gc which :: ops) = run L (τ.collect which) ops := by
          show (match run L (τ.collect which) ops with | .error e => _ | .ok (σ'', r') => _) = _
          cases run L (τ.collect which) ops with
          | error e => rfl
          | ok x => rfl
        rw [hrun]
        exact ⟨fun hs => ih.1 hs.2, fun hs => ih.2 fun h => hs ⟨(fun _ h => nomatch h), h⟩⟩
      | _ => cases hop
    | false =>
      rw [List.filter_cons, hop] at hr
      simp only [Bool.not_false, if_true] at hr
      unfold run at hr
      split at hr
      · cases hr
      · next σ1 r1 h1 =>
        split at hr
        · cases hr
        · next σ2 r2 h2 =>
          cases hr
          have S := step_sim H R hop h1
          constructor
          · rintro ⟨hf, hs⟩
            obtain ⟨τ1, g1, g2, g3⟩ := S.1 hf
            obtain ⟨τ2, g4, g5, g6⟩ := (run_sim ops g3 g2 h2).1 hs
            refine ⟨τ2, ?_, g5, g6⟩
            unfold run; rw [g1]; simp only; rw [g4]
          · intro hn
            by_cases hf : Fresh p op
            · obtain ⟨τ1, g1, g2, g3⟩ := S.1 hf
              have := (run_sim ops g3 g2 h2).2 fun hs => hn ⟨hf, hs⟩
              unfold run; rw [g1]; simp only; rw [this]
            · unfold run; rw [S.2 hf]

/-- Every operation keeps the invariant. -/
theorem step_inv {L : Lib} {p : Past} {σ : State} (H : Inv p σ) {op : Op} {σ' : State} {r : List Seen}
    (hs : step L σ op = .ok (σ', r)) : Inv (p.next op) σ' := by
  cases op with
  | gc which => cases hs; exact H.collect which
  | file b => cases hs; exact H.growRef true (block_file L _ _ b) ⟨.inr rfl, rfl⟩
  | list => cases hs; exact H.growRef true (block_list _ _) ⟨.inl rfl, rfl⟩
  | add l b =>
    obtain ⟨⟨i, o⟩, hu, hs⟩ := bind_ok hs
    obtain ⟨r', -, -, -, h3, h4⟩ := use_ok hu
    simp only at hs
    split at hs
    next hk => cases hs; exact H.addFile L b h3 h4 hk
    next => cases hs
  | take h k =>
    obtain ⟨⟨i, o⟩, hu, hs⟩ := bind_ok hs
    obtain ⟨r', h1, -, h2, h3, h4⟩ := use_ok hu
    subst h2
    simp only at hs
    split at hs
    next => cases hs
    next c hc => cases hs; exact H.take h1 h3 (List.mem_of_getElem? hc)
  | diff h h' =>
    obtain ⟨⟨i, o⟩, hu, hs⟩ := bind_ok hs
    obtain ⟨⟨i', o'⟩, hu', hs⟩ := bind_ok hs
    simp only at hs
    split at hs
    next hk => cases hs; exact H.growRef false (block_result _ _) ⟨rfl, rfl⟩
    next => cases hs
  | analyze l =>
    obtain ⟨⟨i, o⟩, hu, hs⟩ := bind_ok hs
    simp only at hs
    split at hs
    next hk => cases hs; exact H.growRef false (block_result _ _) ⟨rfl, rfl⟩
    next => cases hs
  | context h =>
    obtain ⟨⟨i, o⟩, hu, hs⟩ := bind_ok hs
    obtain ⟨r', -, -, -, h3, h4⟩ := use_ok hu
    simp only at hs
    split at hs
    next hk => cases hs; exact H.setContext h3 h4 hk
    next => cases hs
  | read h =>
    obtain ⟨⟨i, o⟩, hu, hs⟩ := bind_ok hs
    cases hs; exact H
  | lose h =>
    simp only [step] at hs
    split at hs
    next t w hr => cases hs; exact H.lose hr
    next => cases hs

theorem run_inv {L : Lib} : ∀ (ops : List Op) {p : Past} {σ : State}, Inv p σ → ∀ {σ' : State} {r : List Seen},
    run L σ ops = .ok (σ', r) → Inv (ops.foldl Past.next p) σ'
  | [], p, σ, H, σ', r, hr => by cases hr; exact H
  | op :: ops, p, σ, H, σ', r, hr => by
    unfold run at hr
    split at hr
    · cases hr
    · next σ1 r1 h1 =>
      split at hr
      · cases hr
      · next σ2 r2 h2 => cases hr; exact run_inv ops (step_inv H h1) h2

/-- A program that uses nothing whose owner it has dropped uses nothing that was collected. -/
theorem sound_of_keeps : ∀ (ops : List Op) (p : Past), (∀ h ∈ p.gone, h ∈ p.lost) → Keeps p ops → Sound p ops
  | [], _, _, _ => trivial
  | op :: ops, p, hg, hk => by
    refine ⟨fun h hh d hd hm => hk.1 h hh d hd (hg d hm), sound_of_keeps ops _ ?_ hk.2⟩
    cases op with
    | lose h => exact fun k hk => .tail _ (hg k hk)
    | gc which =>
      intro k hk
      rcases List.mem_append.1 hk with hk | hk
      · have := (List.mem_filter.1 hk).2
        exact of_decide_eq_true this
      · exact hg k hk
    | _ => exact hg

/-! ### The property -/

/-- C105, exact: take any program that could run if memory were never reclaimed. If it uses nothing
that depends on an object that it has dropped and that was collected, it reads what it would read
then; if it does, it crashes. -/
theorem C105_exact (L : Lib) (ops : List Op) (σ : State) (r : List Seen)
    (h : run L start (ops.filter fun op => !op.isGc) = .ok (σ, r)) :
    (Sound Past.start ops → ∃ σ', run L start ops = .ok (σ', r)) ∧
    (¬ Sound Past.start ops → run L start ops = .error .crash) := by
  have := run_sim ops inv_start rel_start h
  exact ⟨fun hs => let ⟨σ', h1, _⟩ := this.1 hs; ⟨σ', h1⟩, this.2⟩

/-- C105 for every program that keeps an object as long as it uses what it got from it. -/
theorem C105_partial (L : Lib) (ops : List Op) (σ : State) (r : List Seen)
    (h : run L start (ops.filter fun op => !op.isGc) = .ok (σ, r)) (hk : Keeps Past.start ops) :
    ∃ σ', run L start ops = .ok (σ', r) :=
  (C105_exact L ops σ r h).1 (sound_of_keeps ops _ (fun _ h => nomatch h) hk)

/-- A program that takes a file from a list, drops the list and uses the file. -/
def fromList (b : Bytes) : List Op := [.list, .add 0 b, .take 0 0, .lose 0, .gc [0], .read 1]

/-- C105 as stated is false, whatever the library computes. -/
theorem C105_negation (L : Lib) : ¬ C105_full L := by
  intro h
  obtain ⟨σ', h1⟩ := h (fromList [65]) _ _ rfl
  have h2 : run L start (fromList [65]) = .error .crash := by
    refine (C105_exact L (fromList [65]) _ _ rfl).2 fun hs => ?_
    simp [fromList, Sound, Past.next, Past.start, Op.uses] at hs
  rw [h2] at h1
  cases h1

/-- C105, what is never freed: when a program has dropped all references and all are collected, what
is left are the results of comparisons and analyses, and those arrays of names that no file made by
`new` has as its context: the arrays that were replaced and those of the files of lists. -/
theorem C105_leaks (L : Lib) (ops : List Op) (σ : State) (r : List Seen) (h : run L start ops = .ok (σ, r))
    (hl : ∀ x ∈ σ.refs, x.kept = false) (i : Nat) (o : Obj)
    (ho : (σ.collect (List.range σ.refs.length)).objs[i]? = some o) :
    o.live = true ↔ o.kind = .result ∨ (o.kind = .array ∧
      ¬ ∃ (f : Nat) (of : Obj), (σ.collect (List.range σ.refs.length)).objs[f]? = some of ∧ of.ctx = some i ∧ of.root = some f) := by
  have H := (run_inv ops inv_start h).collect (List.range σ.refs.length)
  have H0 := run_inv ops inv_start h
  generalize hp : ops.foldl Past.next Past.start = p at H H0
  have hlen : (σ.collect (List.range σ.refs.length)).refs.length = σ.refs.length := by rw [← H.len, ← H0.len]
  have hgone : ∀ d : Nat, d < σ.refs.length → d ∈ (List.range σ.refs.length).filter (· ∈ p.lost) ++ p.gone := by
    intro d hd
    obtain ⟨rd, hrd⟩ := some_of_lt hd
    have := (H0.lost d rd hrd).1 (hl rd (List.mem_of_getElem? hrd))
    exact List.mem_append.2 (.inl (List.mem_filter.2 ⟨List.mem_range.2 hd, by simpa using this⟩))
  have hroot : o.live = true ↔ o.root = none := by
    cases hr : o.root with
    | none => simp [H.free i o ho hr]
    | some x =>
      obtain ⟨d, rd, h1, h2, h3, h4⟩ := H.root i o x ho hr
      have h5 := lt_of_some h2
      rw [hlen] at h5
      constructor
      · intro h6; exact absurd (hgone d h5) (h4.1 h6)
      · intro h6; cases h6
  rw [hroot]
  by_cases hk : o.kind = .array
  · constructor
    · intro hr
      refine .inr ⟨hk, ?_⟩
      rintro ⟨f, of, h1, h2, h3⟩
      obtain ⟨oa, h4, h5, h6⟩ := H.ctx f of i h1 h2
      rw [ho] at h4; cases h4
      rw [if_pos h3, hr] at h6; cases h6
    · rintro (h1 | ⟨-, h1⟩)
      · rw [hk] at h1; cases h1
      · cases hr : o.root with
        | none => rfl
        | some x =>
          obtain ⟨f, h2, h3, h4⟩ := H.arr i o x ho hk hr
          exact absurd ⟨x, f, h2, h3, h4⟩ h1
  · rw [H.kind i o ho hk]
    exact ⟨.inl, fun h => h.resolve_right fun h' => hk h'.1⟩

/-! ### The hypotheses are met -/

/-- A library that reports one language for each file. -/
def sample : Lib := ⟨fun b => [b], fun a b => [a, b], fun bs => bs⟩

/-- A program that keeps the list while it uses its files, with the collector running in between. -/
def careful : List Op :=
  [.list, .add 0 [65], .add 0 [66], .take 0 1, .gc [0, 1], .take 1 0, .read 2, .analyze 0, .file [67], .diff 1 4, .context 4, .context 4,
   .lose 1, .gc [1], .read 5, .lose 0, .gc [0], .read 3]

example : (∃ σ r, run sample start (careful.filter fun op => !op.isGc) = .ok (σ, r)) ∧ Keeps Past.start careful := by
  refine ⟨⟨_, _, rfl⟩, ?_⟩
  simp [careful, Keeps, Past.next, Past.start, Op.uses]

example : (match run sample start careful with | .ok (_, r) => r | .error _ => []) = [([66], 0), ([], 2), ([], 2)] := by decide

example : run sample start (fromList [65]) = .error .crash := rfl

/-- After all is dropped and collected, the results and the replaced array are left. -/
example : (match run sample start (careful ++ [.lose 2, .lose 3, .lose 4, .lose 5, .gc [0, 1, 2, 3, 4, 5]]) with
    | .ok (σ, _) => (σ.objs.filter (·.live)).map (·.kind)
    | .error _ => []) = [.result, .result, .result, .result, .result, .result, .array] := by decide

end Ohcount.Owners
