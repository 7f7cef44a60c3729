import Verif.Diff
/-
C104: the file context of a source file as a Ruby program sets and reads it.

ruby/ohcount.i gives the library pointers into the strings of the Ruby program. The model has
the strings of the program, their buffers, the garbage collector, the arrays of pointers that
`set_filenames` allocates, and source files.
-/

namespace Ohcount.Ruby

open Ohcount Ohcount.Diff

/-- What a Ruby program, or the garbage collector on its behalf, can do. Strings and source files
are numbered in the order in which they are made. -/
inductive Op where
  /-- make a new string -/
  | str (b : Bytes)
  /-- append to a string of the program in place -/
  | append (s : Nat) (b : Bytes)
  /-- drop the last reference of the program to a string -/
  | lose (s : Nat)
  /-- a run of the garbage collector, which frees those of the listed strings to which the program
  has no reference; which these are is not known to the program -/
  | gc (which : List Nat)
  /-- `SourceFile.new(path)` -/
  | file
  /-- `file.filenames = strings` -/
  | set (f : Nat) (ss : List Nat)
  /-- `file.filenames`, as used by `each`; detection of a `.h` file reads the same strings -/
  | read (f : Nat)
  /-- the program has no reference to the source file any more and it is collected -/
  | free (f : Nat)

/-- Replaces the value of a function at one place. -/
def put {α : Type} (m : Nat → α) (k : Nat) (v : α) : Nat → α := fun x => if x = k then v else m x

@[simp] theorem put_same {α : Type} (m : Nat → α) (k : Nat) (v : α) : put m k v k = v := if_pos rfl
theorem put_other {α : Type} (m : Nat → α) {k x : Nat} (v : α) (h : x ≠ k) : put m k v x = m x := if_neg h

/-- The state of the process. -/
structure State where
  /-- number of strings made -/
  nstr : Nat
  /-- the program refers to the string -/
  kept : Nat → Bool
  /-- the buffer of a string, which `StringValuePtr` returns -/
  buf : Nat → Nat
  /-- number of buffers made -/
  nbuf : Nat
  /-- the bytes of a buffer, `none` if it is not allocated -/
  mem : Nat → Option Bytes
  /-- number of source files made -/
  nfile : Nat
  /-- the source file has not been freed -/
  alive : Nat → Bool
  /-- the member `filenames` of a source file, `none` for a null pointer -/
  ptr : Nat → Option Nat
  /-- number of arrays made -/
  narr : Nat
  /-- the pointers in an array before the null pointer, `none` if it is not allocated -/
  arr : Nat → Option (List Nat)

/-- The state at the start of the program. -/
def start : State :=
  ⟨0, fun _ => false, fun _ => 0, 0, fun _ => none, 0, fun _ => false, fun _ => none, 0, fun _ => none⟩

/-- How an operation can fail: the program has no such object, or memory is used that is not
allocated. -/
inductive Fault where
  | noObject
  | crash
  deriving DecidableEq, Repr

/-- Making a string. -/
def State.newStr (σ : State) (b : Bytes) : State :=
  { σ with nstr := σ.nstr + 1, kept := put σ.kept σ.nstr true, buf := put σ.buf σ.nstr σ.nbuf,
           nbuf := σ.nbuf + 1, mem := put σ.mem σ.nbuf (some b) }

/-- Appending to a string. Ruby may move the bytes to a new buffer; here it always does. -/
def State.append (σ : State) (s : Nat) (b : Bytes) : State :=
  { σ with buf := put σ.buf s σ.nbuf, nbuf := σ.nbuf + 1,
           mem := put (put σ.mem (σ.buf s) none) σ.nbuf ((σ.mem (σ.buf s)).map (· ++ b)) }

/-- The garbage collector. A source file does not mark the strings its array points into:
ruby/ohcount.i has no mark function. -/
def State.collect (σ : State) : List Nat → State
  | [] => σ
  | s :: ss =>
    State.collect (if s < σ.nstr ∧ σ.kept s = false then { σ with mem := put σ.mem (σ.buf s) none } else σ) ss

/-- `set_filenames`, ruby/ohcount.i:113-120: allocates the array, stores the pointers into the
strings and stores the array in the source file. An array that was there before is not freed. -/
def State.setFilenames (σ : State) (f : Nat) (ss : List Nat) : State :=
  { σ with narr := σ.narr + 1, arr := put σ.arr σ.narr (some (ss.map σ.buf)), ptr := put σ.ptr f (some σ.narr) }

/-- Reading the member: the conversion of `char **` of ruby/ohcount.i:19-25, which makes a string
of the bytes before the first NUL of each (`rb_str_new2`). It does not test for a null pointer. -/
def State.filenames (σ : State) (f : Nat) : Option (List Bytes) :=
  match σ.ptr f with
  | none => none
  | some a =>
    match σ.arr a with
    | none => none
    | some l => l.mapM fun p => (σ.mem p).map cstr

/-- `~SourceFile`, ruby/ohcount.i:205-209. The other blocks of the file are those of C74. -/
def State.freeFile (σ : State) (f : Nat) : State :=
  { σ with alive := put σ.alive f false,
           arr := match σ.ptr f with
             | none => σ.arr
             | some a => put σ.arr a none }

/-- One operation: the state and what the program reads. -/
def step (σ : State) : Op → Except Fault (State × List (List Bytes))
  | .str b => .ok (σ.newStr b, [])
  | .append s b => if σ.kept s then .ok (σ.append s b, []) else .error .noObject
  | .lose s => if σ.kept s then .ok ({ σ with kept := put σ.kept s false }, []) else .error .noObject
  | .gc which => .ok (σ.collect which, [])
  | .file => .ok ({ σ with nfile := σ.nfile + 1, alive := put σ.alive σ.nfile true, ptr := put σ.ptr σ.nfile none }, [])
  | .set f ss => if σ.alive f ∧ ∀ s ∈ ss, σ.kept s then .ok (σ.setFilenames f ss, []) else .error .noObject
  | .read f =>
    if σ.alive f then
      match σ.filenames f with
      | some r => .ok (σ, [r])
      | none => .error .crash
    else .error .noObject
  | .free f => if σ.alive f then .ok (σ.freeFile f, []) else .error .noObject

/-- A history of operations: the last state and all that was read. -/
def run (σ : State) : List Op → Except Fault (State × List (List Bytes))
  | [] => .ok (σ, [])
  | op :: ops =>
    match step σ op with
    | .error e => .error e
    | .ok (σ', r) =>
      match run σ' ops with
      | .error e => .error e
      | .ok (σ'', r') => .ok (σ'', r ++ r')

/-! ### Specification -/

/-- What a Ruby programmer expects: a source file has the names it was given, as they were then. -/
structure Given where
  nstr : Nat
  kept : Nat → Bool
  text : Nat → Bytes
  nfile : Nat
  alive : Nat → Bool
  /-- the names given last -/
  names : Nat → Option (List Bytes)
  /-- how often names were given to a file that had some -/
  replaced : Nat

def Given.start : Given := ⟨0, fun _ => false, fun _ => [], 0, fun _ => false, fun _ => none, 0⟩

/-- One operation; `none` if the program has no such object. -/
def Given.step (g : Given) : Op → Option (Given × List (List Bytes))
  | .str b => some ({ g with nstr := g.nstr + 1, kept := put g.kept g.nstr true, text := put g.text g.nstr b }, [])
  | .append s b => if g.kept s then some ({ g with text := put g.text s (g.text s ++ b) }, []) else none
  | .lose s => if g.kept s then some ({ g with kept := put g.kept s false }, []) else none
  | .gc _ => some (g, [])
  | .file => some ({ g with nfile := g.nfile + 1, alive := put g.alive g.nfile true, names := put g.names g.nfile none }, [])
  | .set f ss =>
    if g.alive f ∧ ∀ s ∈ ss, g.kept s then
      some ({ g with names := put g.names f (some (ss.map fun s => cstr (g.text s))),
                     replaced := g.replaced + if (g.names f).isSome then 1 else 0 }, [])
    else none
  | .read f => if g.alive f then some (g, [(g.names f).getD []]) else none
  | .free f => if g.alive f then some ({ g with alive := put g.alive f false }, []) else none

def Given.run (g : Given) : List Op → Option (Given × List (List Bytes))
  | [] => some (g, [])
  | op :: ops =>
    match g.step op with
    | none => none
    | some (g', r) =>
      match g'.run ops with
      | none => none
      | some (g'', r') => some (g'', r ++ r')

/-- C104 in full: whatever the program does, it reads the names it has given. -/
def C104_full : Prop :=
  ∀ (ops : List Op) (g : Given) (r : List (List Bytes)), Given.start.run ops = some (g, r) →
    ∃ σ, run start ops = .ok (σ, r)

/-- The program keeps the strings of a context, unchanged, as long as a source file has them, and
reads no context before it has given one. `has` says which strings which file was given. -/
def Keeps (has : Nat → Option (List Nat)) : List Op → Prop
  | [] => True
  | .append s _ :: ops => (∀ f ss, has f = some ss → s ∉ ss) ∧ Keeps has ops
  | .lose s :: ops => (∀ f ss, has f = some ss → s ∉ ss) ∧ Keeps has ops
  | .set f ss :: ops => Keeps (put has f (some ss)) ops
  | .free f :: ops => Keeps (put has f none) ops
  | .read f :: ops => has f ≠ none ∧ Keeps has ops
  | _ :: ops => Keeps has ops

/-- Which strings which file was given after an operation. -/
def given1 (has : Nat → Option (List Nat)) : Op → Nat → Option (List Nat)
  | .set f ss => put has f (some ss)
  | .free f => put has f none
  | _ => has

/-- Which strings which file was given after a history. -/
def given (ops : List Op) : Nat → Option (List Nat) := ops.foldl given1 fun _ => none

/-! ### Refinement -/

structure Agrees (σ : State) (g : Given) (has : Nat → Option (List Nat)) : Prop where
  nstr : σ.nstr = g.nstr
  kept : σ.kept = g.kept
  nfile : σ.nfile = g.nfile
  alive : σ.alive = g.alive
  made : ∀ s, σ.kept s = true → s < σ.nstr
  born : ∀ f, σ.alive f = true → f < σ.nfile
  bufs : ∀ s, s < σ.nstr → σ.buf s < σ.nbuf
  inj : ∀ s t, s < σ.nstr → t < σ.nstr → σ.buf s = σ.buf t → s = t
  text : ∀ s, σ.kept s = true → σ.mem (σ.buf s) = some (g.text s)
  dead : ∀ f, σ.alive f = false → has f = none
  none : ∀ f, σ.alive f = true → has f = Option.none → σ.ptr f = Option.none ∧ g.names f = Option.none
  ctx : ∀ f ss, has f = some ss → ∃ a, σ.ptr f = some a ∧ a < σ.narr ∧ σ.arr a = some (ss.map σ.buf) ∧
    (∀ s ∈ ss, σ.kept s = true) ∧ g.names f = some (ss.map fun s => cstr (g.text s))
  own : ∀ f f' a, has f ≠ Option.none → has f' ≠ Option.none → σ.ptr f = some a → σ.ptr f' = some a → f = f'

theorem agrees_start : Agrees start Given.start fun _ => none := by
  constructor <;> simp [start, Given.start]

theorem collect_frame (ss : List Nat) : ∀ σ : State,
    (σ.collect ss).nstr = σ.nstr ∧ (σ.collect ss).kept = σ.kept ∧ (σ.collect ss).buf = σ.buf ∧ (σ.collect ss).nbuf = σ.nbuf ∧
    (σ.collect ss).nfile = σ.nfile ∧ (σ.collect ss).alive = σ.alive ∧ (σ.collect ss).ptr = σ.ptr ∧ (σ.collect ss).narr = σ.narr ∧
    (σ.collect ss).arr = σ.arr := by
  induction ss with
  | nil => intro σ; exact ⟨rfl, rfl, rfl, rfl, rfl, rfl, rfl, rfl, rfl⟩
  | cons s ss ih =>
    intro σ
    unfold State.collect
    split
    · exact ih { σ with mem := put σ.mem (σ.buf s) none }
    · exact ih σ

theorem collect_mem (ss : List Nat) : ∀ (σ : State) (t : Nat), (∀ s t, s < σ.nstr → t < σ.nstr → σ.buf s = σ.buf t → s = t) →
    t < σ.nstr → σ.kept t = true → (σ.collect ss).mem (σ.buf t) = σ.mem (σ.buf t) := by
  induction ss with
  | nil => intro σ t _ _ _; rfl
  | cons s ss ih =>
    intro σ t hi ht hk
    unfold State.collect
    split
    · next h =>
      refine (ih { σ with mem := put σ.mem (σ.buf s) none } t hi ht hk).trans ?_
      refine put_other _ _ fun e => ?_
      have := hi t s ht h.1 e
      rw [this, h.2] at hk
      cases hk
    · exact ih σ t hi ht hk

theorem mapM_some {α β : Type} (f : α → Option β) (g : α → β) : ∀ l : List α, (∀ x ∈ l, f x = some (g x)) → l.mapM f = some (l.map g)
  | [], _ => rfl
  | x :: l, h => by
    rw [List.mapM_cons, h x (.head _), mapM_some f g l fun y hy => h y (.tail _ hy)]
    rfl

theorem step_agrees {σ : State} {g : Given} {has : Nat → Option (List Nat)} (H : Agrees σ g has) (op : Op) (ops : List Op)
    (hk : Keeps has (op :: ops)) {g' : Given} {r : List (List Bytes)} (hg : g.step op = some (g', r)) :
    ∃ σ', step σ op = .ok (σ', r) ∧ Agrees σ' g' (given1 has op) ∧ Keeps (given1 has op) ops := by
  cases op with
  | str b =>
    cases hg
    refine ⟨_, rfl, ?_, hk⟩
    have hne : ∀ s, s < σ.nstr → s ≠ σ.nstr := fun s h => by omega
    refine ⟨by simp [State.newStr, H.nstr], by simp [State.newStr, H.kept, H.nstr], H.nfile, H.alive, ?_, H.born, ?_, ?_, ?_, H.dead,
      H.none, ?_, H.own⟩
    · intro s hs
      by_cases e : s = σ.nstr
      · show s < σ.nstr + 1; omega
      · have hs : put σ.kept σ.nstr true s = true := hs
        rw [put_other _ _ e] at hs
        have := H.made s hs
        show s < σ.nstr + 1; omega
    · intro s hs
      have hs : s < σ.nstr + 1 := hs
      by_cases e : s = σ.nstr
      · subst e; show put σ.buf σ.nstr σ.nbuf σ.nstr < σ.nbuf + 1; rw [put_same]; omega
      · have := H.bufs s (by omega)
        show put σ.buf σ.nstr σ.nbuf s < σ.nbuf + 1
        rw [put_other _ _ e]; omega
    · intro s t hs ht e
      have hs : s < σ.nstr + 1 := hs
      have ht : t < σ.nstr + 1 := ht
      have e : put σ.buf σ.nstr σ.nbuf s = put σ.buf σ.nstr σ.nbuf t := e
      by_cases e1 : s = σ.nstr <;> by_cases e2 : t = σ.nstr
      · omega
      · rw [e1, put_same, put_other _ _ e2] at e
        have := H.bufs t (by omega); omega
      · rw [e2, put_same, put_other _ _ e1] at e
        have := H.bufs s (by omega); omega
      · rw [put_other _ _ e1, put_other _ _ e2] at e
        exact H.inj s t (by omega) (by omega) e
    · intro s hs
      show put σ.mem σ.nbuf (some b) (put σ.buf σ.nstr σ.nbuf s) = some (put g.text g.nstr b s)
      by_cases e : s = σ.nstr
      · rw [e, put_same, put_same, H.nstr, put_same]
      · have hs : put σ.kept σ.nstr true s = true := hs
        rw [put_other _ _ e] at hs
        have h1 := H.bufs s (H.made s hs)
        rw [put_other _ _ e, put_other _ _ (by omega), put_other _ _ (by rw [← H.nstr]; exact e)]
        exact H.text s hs
    · intro f ss hf
      obtain ⟨a, h1, h2, h3, h4, h5⟩ := H.ctx f ss hf
      have hlt : ∀ s ∈ ss, s ≠ σ.nstr := fun s hs => hne s (H.made s (h4 s hs))
      refine ⟨a, h1, h2, ?_, ?_, ?_⟩
      · show σ.arr a = some (ss.map (put σ.buf σ.nstr σ.nbuf))
        rw [h3]; congr 1
        exact List.map_congr_left fun s hs => (put_other _ _ (hlt s hs)).symm
      · intro s hs
        show put σ.kept σ.nstr true s = true
        rw [put_other _ _ (hlt s hs)]; exact h4 s hs
      · show g.names f = some (ss.map fun s => cstr (put g.text g.nstr b s))
        rw [h5]; congr 1
        exact List.map_congr_left fun s hs => by rw [put_other _ _ (by rw [← H.nstr]; exact hlt s hs)]
  | append s b =>
    obtain ⟨hk1, hk2⟩ := hk
    simp only [Given.step] at hg
    split at hg
    next hs =>
      cases hg
      have hs' : σ.kept s = true := by rw [H.kept]; exact hs
      have hsn := H.made s hs'
      refine ⟨_, by rw [step, if_pos hs'], ?_, hk2⟩
      refine ⟨H.nstr, H.kept, H.nfile, H.alive, H.made, H.born, ?_, ?_, ?_, H.dead, H.none, ?_, H.own⟩
      · intro t ht
        show put σ.buf s σ.nbuf t < σ.nbuf + 1
        by_cases e : t = s
        · rw [e, put_same]; omega
        · rw [put_other _ _ e]; have := H.bufs t ht; omega
      · intro t u ht hu e
        have e : put σ.buf s σ.nbuf t = put σ.buf s σ.nbuf u := e
        by_cases e1 : t = s <;> by_cases e2 : u = s
        · omega
        · rw [e1, put_same, put_other _ _ e2] at e
          have := H.bufs u hu; omega
        · rw [e2, put_same, put_other _ _ e1] at e
          have := H.bufs t ht; omega
        · rw [put_other _ _ e1, put_other _ _ e2] at e
          exact H.inj t u ht hu e
      · intro t ht
        show put (put σ.mem (σ.buf s) none) σ.nbuf ((σ.mem (σ.buf s)).map (· ++ b)) (put σ.buf s σ.nbuf t) =
          some (put g.text s (g.text s ++ b) t)
        by_cases e : t = s
        · rw [e, put_same, put_same, put_same, H.text s hs']; rfl
        · have htn := H.made t ht
          have h1 := H.bufs t htn
          rw [put_other _ _ e, put_other _ _ (by omega), put_other _ _ e,
            put_other _ _ (fun e' => e (H.inj t s htn hsn e'))]
          exact H.text t ht
      · intro f ss hf
        obtain ⟨a, h1, h2, h3, h4, h5⟩ := H.ctx f ss hf
        have hne : ∀ t ∈ ss, t ≠ s := fun t ht e => hk1 f ss hf (e ▸ ht)
        refine ⟨a, h1, h2, ?_, h4, ?_⟩
        · show σ.arr a = some (ss.map (put σ.buf s σ.nbuf))
          rw [h3]; congr 1
          exact List.map_congr_left fun t ht => (put_other _ _ (hne t ht)).symm
        · show g.names f = some (ss.map fun t => cstr (put g.text s (g.text s ++ b) t))
          rw [h5]; congr 1
          exact List.map_congr_left fun t ht => by rw [put_other _ _ (hne t ht)]
    next => cases hg
  | lose s =>
    obtain ⟨hk1, hk2⟩ := hk
    simp only [Given.step] at hg
    split at hg
    next hs =>
      cases hg
      have hs' : σ.kept s = true := by rw [H.kept]; exact hs
      refine ⟨_, by rw [step, if_pos hs'], ?_, hk2⟩
      have hsub : ∀ t, put σ.kept s false t = true → σ.kept t = true := by
        intro t ht
        by_cases e : t = s
        · rw [e, put_same] at ht; cases ht
        · rwa [put_other _ _ e] at ht
      refine ⟨H.nstr, by simp [H.kept], H.nfile, H.alive, fun t ht => H.made t (hsub t ht), H.born, H.bufs, H.inj,
        fun t ht => H.text t (hsub t ht), H.dead, H.none, ?_, H.own⟩
      intro f ss hf
      obtain ⟨a, h1, h2, h3, h4, h5⟩ := H.ctx f ss hf
      refine ⟨a, h1, h2, h3, fun t ht => ?_, h5⟩
      show put σ.kept s false t = true
      rw [put_other _ _ fun e : t = s => hk1 f ss hf (e ▸ ht)]
      exact h4 t ht
    next => cases hg
  | gc which =>
    cases hg
    refine ⟨_, rfl, ?_, hk⟩
    obtain ⟨e1, e2, e3, e4, e5, e6, e7, e8, e9⟩ := collect_frame which σ
    refine ⟨by rw [e1]; exact H.nstr, by rw [e2]; exact H.kept, by rw [e5]; exact H.nfile, by rw [e6]; exact H.alive,
      by rw [e1, e2]; exact H.made, by rw [e5, e6]; exact H.born, by rw [e1, e3, e4]; exact H.bufs, by rw [e1, e3]; exact H.inj, ?_,
      by rw [e6]; exact H.dead, by rw [e6, e7]; exact H.none, by rw [e2, e3, e7, e8, e9]; exact H.ctx, by rw [e7]; exact H.own⟩
    intro s hs
    rw [e2] at hs
    rw [e3, collect_mem which σ s H.inj (H.made s hs) hs]
    exact H.text s hs
  | file =>
    show ∃ σ', step σ .file = .ok (σ', r) ∧ Agrees σ' g' has ∧ Keeps has ops
    cases hg
    have hd : has σ.nfile = none := by
      refine H.dead _ ?_
      cases h : σ.alive σ.nfile with
      | false => rfl
      | true => exact absurd (H.born _ h) (Nat.lt_irrefl _)
    refine ⟨_, rfl, ?_, hk⟩
    have hne : ∀ f, has f ≠ none → f ≠ σ.nfile := fun f hf e => hf (e ▸ hd)
    refine ⟨H.nstr, H.kept, by simp [H.nfile], by simp [H.alive, H.nfile], H.made, ?_, H.bufs, H.inj, H.text, ?_, ?_, ?_, ?_⟩
    · intro f hf
      show f < σ.nfile + 1
      by_cases e : f = σ.nfile
      · omega
      · have hf : put σ.alive σ.nfile true f = true := hf
        rw [put_other _ _ e] at hf
        have := H.born f hf; omega
    · intro f hf
      have hf : put σ.alive σ.nfile true f = false := hf
      by_cases e : f = σ.nfile
      · rw [e]; exact hd
      · rw [put_other _ _ e] at hf; exact H.dead f hf
    · intro f hf hh
      have hf : put σ.alive σ.nfile true f = true := hf
      show put σ.ptr σ.nfile none f = none ∧ put g.names g.nfile none f = none
      by_cases e : f = σ.nfile
      · rw [e, put_same, H.nfile, put_same]; exact ⟨rfl, rfl⟩
      · rw [put_other _ _ e] at hf
        rw [put_other _ _ e, put_other _ _ (by rw [← H.nfile]; exact e)]
        exact H.none f hf hh
    · intro f ss hf
      obtain ⟨a, h1, h2, h3, h4, h5⟩ := H.ctx f ss hf
      have e := hne f (by rw [hf]; simp)
      refine ⟨a, ?_, h2, h3, h4, ?_⟩
      · show put σ.ptr σ.nfile none f = some a
        rw [put_other _ _ e]; exact h1
      · show put g.names g.nfile none f = _
        rw [put_other _ _ (by rw [← H.nfile]; exact e)]; exact h5
    · intro f f' a hf hf' h1 h2
      have h1 : put σ.ptr σ.nfile none f = some a := h1
      have h2 : put σ.ptr σ.nfile none f' = some a := h2
      rw [put_other _ _ (hne f hf)] at h1
      rw [put_other _ _ (hne f' hf')] at h2
      exact H.own f f' a hf hf' h1 h2
  | set f ss =>
    show ∃ σ', step σ (.set f ss) = .ok (σ', r) ∧ Agrees σ' g' (put has f (some ss)) ∧ Keeps (put has f (some ss)) ops
    simp only [Given.step] at hg
    split at hg
    next hc =>
      cases hg
      have hc' : σ.alive f = true ∧ ∀ s ∈ ss, σ.kept s = true := by rw [H.alive, H.kept]; exact hc
      refine ⟨_, by rw [step, if_pos hc'], ?_, hk⟩
      have lt : ∀ f' a, has f' ≠ none → σ.ptr f' = some a → a < σ.narr := by
        intro f' a hf' h
        obtain ⟨ss', hss'⟩ := Option.ne_none_iff_exists'.mp hf'
        obtain ⟨a', h1, h2, _⟩ := H.ctx f' ss' hss'
        rw [h1] at h; cases h; exact h2
      refine ⟨H.nstr, H.kept, H.nfile, H.alive, H.made, H.born, H.bufs, H.inj, H.text, ?_, ?_, ?_, ?_⟩
      · intro f' hf'
        have e : f' ≠ f := fun e => by rw [e] at hf'; rw [show σ.alive f = false from hf'] at hc'; cases hc'.1
        rw [put_other _ _ e]; exact H.dead f' hf'
      · intro f' hf' hh
        by_cases e : f' = f
        · rw [e, put_same] at hh; cases hh
        · rw [put_other _ _ e] at hh
          show put σ.ptr f (some σ.narr) f' = none ∧ put g.names f _ f' = none
          rw [put_other _ _ e, put_other _ _ e]
          exact H.none f' hf' hh
      · intro f' ss' hf'
        by_cases e : f' = f
        · subst e
          rw [put_same] at hf'; cases hf'
          refine ⟨σ.narr, put_same _ _ _, Nat.lt_succ_self _, put_same _ _ _, hc'.2, put_same _ _ _⟩
        · rw [put_other _ _ e] at hf'
          obtain ⟨a, h1, h2, h3, h4, h5⟩ := H.ctx f' ss' hf'
          refine ⟨a, ?_, Nat.lt_succ_of_lt h2, ?_, h4, ?_⟩
          · show put σ.ptr f (some σ.narr) f' = some a
            rw [put_other _ _ e]; exact h1
          · show put σ.arr σ.narr _ a = _
            rw [put_other _ _ (by omega)]; exact h3
          · show put g.names f _ f' = _
            rw [put_other _ _ e]; exact h5
      · intro f1 f2 a h1 h2 p1 p2
        have p1 : put σ.ptr f (some σ.narr) f1 = some a := p1
        have p2 : put σ.ptr f (some σ.narr) f2 = some a := p2
        by_cases e1 : f1 = f <;> by_cases e2 : f2 = f
        · omega
        · rw [e1, put_same] at p1; rw [put_other _ _ e2] at p2 h2
          cases p1
          exact absurd (lt f2 _ h2 p2) (Nat.lt_irrefl _)
        · rw [e2, put_same] at p2; rw [put_other _ _ e1] at p1 h1
          cases p2
          exact absurd (lt f1 _ h1 p1) (Nat.lt_irrefl _)
        · rw [put_other _ _ e1] at p1 h1; rw [put_other _ _ e2] at p2 h2
          exact H.own f1 f2 a h1 h2 p1 p2
    next => cases hg
  | read f =>
    obtain ⟨hk1, hk2⟩ := hk
    simp only [Given.step] at hg
    split at hg
    next hf =>
      cases hg
      have hf' : σ.alive f = true := by rw [H.alive]; exact hf
      obtain ⟨ss, hss⟩ := Option.ne_none_iff_exists'.mp hk1
      obtain ⟨a, h1, h2, h3, h4, h5⟩ := H.ctx f ss hss
      refine ⟨σ, ?_, H, hk2⟩
      have : σ.filenames f = some (ss.map fun s => cstr (g.text s)) := by
        unfold State.filenames
        rw [h1]; dsimp only; rw [h3]; dsimp only
        rw [mapM_some _ (fun p => ((σ.mem p).map cstr).getD []) _ ?_, List.map_map]
        · congr 1
          refine List.map_congr_left fun s hs => ?_
          show ((σ.mem (σ.buf s)).map cstr).getD [] = _
          rw [H.text s (h4 s hs)]; rfl
        · intro p hp
          obtain ⟨s, hs, rfl⟩ := List.mem_map.mp hp
          rw [H.text s (h4 s hs)]; rfl
      rw [step, if_pos hf', this, h5]; rfl
    next => cases hg
  | free f =>
    show ∃ σ', step σ (.free f) = .ok (σ', r) ∧ Agrees σ' g' (put has f none) ∧ Keeps (put has f none) ops
    simp only [Given.step] at hg
    split at hg
    next hf =>
      cases hg
      have hf' : σ.alive f = true := by rw [H.alive]; exact hf
      refine ⟨_, by rw [step, if_pos hf'], ?_, hk⟩
      have sub : ∀ f', put has f none f' ≠ none → f' ≠ f ∧ has f' ≠ none := by
        intro f' h
        by_cases e : f' = f
        · rw [e, put_same] at h; exact absurd rfl h
        · rw [put_other _ _ e] at h; exact ⟨e, h⟩
      refine ⟨H.nstr, H.kept, H.nfile, by simp [State.freeFile, H.alive], H.made, ?_, H.bufs, H.inj, H.text, ?_, ?_, ?_, ?_⟩
      · intro f' h
        have h : put σ.alive f false f' = true := h
        by_cases e : f' = f
        · rw [e, put_same] at h; cases h
        · rw [put_other _ _ e] at h; exact H.born f' h
      · intro f' h
        have h : put σ.alive f false f' = false := h
        by_cases e : f' = f
        · rw [e, put_same]
        · rw [put_other _ _ e] at h ⊢; exact H.dead f' h
      · intro f' h hh
        have h : put σ.alive f false f' = true := h
        by_cases e : f' = f
        · rw [e, put_same] at h; cases h
        · rw [put_other _ _ e] at h hh; exact H.none f' h hh
      · intro f' ss hh
        obtain ⟨e, hne⟩ := sub f' (by rw [hh]; simp)
        rw [put_other _ _ e] at hh
        obtain ⟨a, h1, h2, h3, h4, h5⟩ := H.ctx f' ss hh
        refine ⟨a, h1, h2, ?_, h4, h5⟩
        show (match σ.ptr f with | none => σ.arr | some a => put σ.arr a none) a = _
        cases hp : σ.ptr f with
        | none => exact h3
        | some b =>
          show put σ.arr b none a = _
          rw [put_other _ _ ?_]; exact h3
          intro eb
          subst eb
          cases hhf : has f with
          | none => have := (H.none f hf' hhf).1; rw [hp] at this; cases this
          | some ss' => exact e (H.own f' f a hne (by rw [hhf]; simp) h1 hp)
      · intro f1 f2 a h1 h2 p1 p2
        exact H.own f1 f2 a (sub f1 h1).2 (sub f2 h2).2 p1 p2
    next => cases hg

theorem run_agrees : ∀ (ops : List Op) (σ : State) (g : Given) (has : Nat → Option (List Nat)), Agrees σ g has → Keeps has ops →
    ∀ (g' : Given) (r : List (List Bytes)), g.run ops = some (g', r) →
      ∃ σ', run σ ops = .ok (σ', r) ∧ Agrees σ' g' (ops.foldl given1 has)
  | [], σ, g, has, H, _, g', r, hg => by cases hg; exact ⟨σ, rfl, H⟩
  | op :: ops, σ, g, has, H, hk, g', r, hg => by
    rw [Given.run] at hg
    cases hs : g.step op with
    | none => rw [hs] at hg; cases hg
    | some p =>
      obtain ⟨g1, r1⟩ := p
      rw [hs] at hg
      dsimp only at hg
      cases hr : g1.run ops with
      | none => rw [hr] at hg; cases hg
      | some q =>
        obtain ⟨g2, r2⟩ := q
        rw [hr] at hg
        cases hg
        obtain ⟨σ1, h1, h2, h3⟩ := step_agrees H op ops hk hs
        obtain ⟨σ2, h4, h5⟩ := run_agrees ops σ1 g1 _ h2 h3 _ _ hr
        refine ⟨σ2, ?_, h5⟩
        rw [run, h1]; dsimp only; rw [h4]

theorem run_append : ∀ (a b : List Op) (σ σ' : State) (r : List (List Bytes)), run σ a = .ok (σ', r) →
    run σ (a ++ b) = (run σ' b).map fun p => (p.1, r ++ p.2)
  | [], b, σ, σ', r, h => by
    cases h
    show run σ b = (run σ b).map fun p => (p.1, [] ++ p.2)
    cases run σ b <;> rfl
  | op :: a, b, σ, σ', r, h => by
    rw [run] at h
    rw [List.cons_append, run]
    cases hs : step σ op with
    | error e => rw [hs] at h; cases h
    | ok p =>
      obtain ⟨σ1, r1⟩ := p
      rw [hs] at h
      dsimp only at h ⊢
      cases hr : run σ1 a with
      | error e => rw [hr] at h; cases h
      | ok q =>
        obtain ⟨σ2, r2⟩ := q
        rw [hr] at h
        cases h
        rw [run_append a b σ1 _ r2 hr]
        cases run σ' b with
        | error e => rfl
        | ok p => show Except.ok (p.1, r1 ++ (r2 ++ p.2)) = Except.ok (p.1, r1 ++ r2 ++ p.2); rw [List.append_assoc]

/-- C104, for programs that keep the strings they give: every read returns the names given last,
whatever else the program and the garbage collector do, in whatever order. -/
theorem C104_kept_partial (ops : List Op) (g : Given) (r : List (List Bytes)) (hk : Keeps (fun _ => none) ops)
    (h : Given.start.run ops = some (g, r)) : ∃ σ, run start ops = .ok (σ, r) :=
  let ⟨σ, h1, _⟩ := run_agrees ops _ _ _ agrees_start hk g r h
  ⟨σ, h1⟩

/-- A program that keeps its strings, with a collection, a change of another string and a second
context. -/
def keeping : List Op :=
  [.str [97, 46, 109], .str [98], .file, .set 0 [0], .lose 1, .gc [0, 1], .read 0, .str [99, 0, 100], .set 0 [2], .append 0 [120], .gc [0], .read 0,
    .free 0, .lose 2, .gc [2]]

example : Keeps (fun _ => none) keeping ∧ (Given.start.run keeping).map (·.2) = some [[[97, 46, 109]], [[99]]] := by
  refine ⟨?_, by decide⟩
  refine ⟨?_, ?_, ?_, ?_, ?_, trivial⟩
  · intro f ss; simp only [put]; split
    · intro e; cases e; simp
    · intro e; cases e
  · simp [put]
  · intro f ss; simp only [put]; split
    · intro e; cases e; simp
    · intro e; cases e
  · simp [put]
  · intro f ss; simp only [put]; split
    · intro e; cases e
    · intro e; cases e

/-- The answer without the state. -/
def answers (e : Except Fault (State × List (List Bytes))) : Except Fault (List (List Bytes)) := e.map (·.2)

/-- C104 in full is false: the strings of a context are freed when the program has no reference to
them, although the source file points into them. -/
theorem C104_negation : ¬ C104_full := by
  intro h
  obtain ⟨σ, hσ⟩ := h [.str [97], .file, .set 0 [0], .lose 0, .gc [0], .read 0] _ _ rfl
  have : run start [.str [97], .file, .set 0 [0], .lose 0, .gc [0], .read 0] = .error .crash := rfl
  rw [this] at hσ
  cases hσ

/-- C104, no context: reading the context of a source file that was given none crashes, in every
state. -/
theorem C104_unset (σ : State) (f : Nat) (h : σ.alive f = true) (hp : σ.ptr f = none) : step σ (.read f) = .error .crash := by
  rw [step, if_pos h]
  unfold State.filenames
  rw [hp]

example : run start [.file, .read 0] = .error .crash := rfl

theorem crash_changed {σ : State} {g : Given} {has : Nat → Option (List Nat)} (H : Agrees σ g has) {f : Nat} {ss : List Nat}
    (hf : has f = some ss) {s : Nat} (hs : s ∈ ss) (b : Bytes) :
    run σ [.append s b, .read f] = .error .crash := by
  obtain ⟨a, h1, h2, h3, h4, h5⟩ := H.ctx f ss hf
  have hk := h4 s hs
  have hal : σ.alive f = true := by
    cases h : σ.alive f with
    | true => rfl
    | false => rw [H.dead f h] at hf; cases hf
  have hb := H.bufs s (H.made s hk)
  have hr : (σ.append s b).filenames f = none := by
    unfold State.filenames
    show (match σ.ptr f with | none => none | some a => match σ.arr a with
      | none => none | some l => l.mapM fun p => ((σ.append s b).mem p).map cstr) = none
    rw [h1]; dsimp only; rw [h3]; dsimp only
    have : ((σ.append s b).mem (σ.buf s)) = none := by
      show put (put σ.mem (σ.buf s) none) σ.nbuf _ (σ.buf s) = none
      rw [put_other _ _ (by omega), put_same]
    clear h3 h4 h5 hf
    induction ss with
    | nil => cases hs
    | cons t ss ih =>
      rw [List.map_cons, List.mapM_cons]
      rcases List.mem_cons.mp hs with e | e
      · subst e; rw [this]; rfl
      · rw [ih e]
        cases ((σ.append s b).mem (σ.buf t)).map cstr <;> rfl
  have e1 : step σ (.append s b) = .ok (σ.append s b, []) := by rw [step, if_pos hk]
  have e2 : step (σ.append s b) (.read f) = .error .crash := by
    rw [step, if_pos (show (σ.append s b).alive f = true from hal), hr]
  rw [run, e1]; dsimp only; rw [run, e2]

theorem crash_lost {σ : State} {g : Given} {has : Nat → Option (List Nat)} (H : Agrees σ g has) {f : Nat} {ss : List Nat}
    (hf : has f = some ss) {s : Nat} (hs : s ∈ ss) :
    run σ [.lose s, .gc [s], .read f] = .error .crash := by
  obtain ⟨a, h1, h2, h3, h4, h5⟩ := H.ctx f ss hf
  have hk := h4 s hs
  have hal : σ.alive f = true := by
    cases h : σ.alive f with
    | true => rfl
    | false => rw [H.dead f h] at hf; cases hf
  have hsn := H.made s hk
  have e1 : step σ (.lose s) = .ok ({ σ with kept := put σ.kept s false }, []) := by rw [step, if_pos hk]
  have e2 : State.collect { σ with kept := put σ.kept s false } [s] =
      { σ with kept := put σ.kept s false, mem := put σ.mem (σ.buf s) none } := by
    unfold State.collect State.collect
    rw [if_pos ⟨hsn, put_same _ _ _⟩]
  have hr : State.filenames { σ with kept := put σ.kept s false, mem := put σ.mem (σ.buf s) none } f = none := by
    unfold State.filenames
    rw [h1]; dsimp only; rw [h3]; dsimp only
    have : put σ.mem (σ.buf s) none (σ.buf s) = none := put_same _ _ _
    clear h3 h4 h5 hf
    induction ss with
    | nil => cases hs
    | cons t ss ih =>
      rw [List.map_cons, List.mapM_cons]
      rcases List.mem_cons.mp hs with e | e
      · subst e; rw [this]; rfl
      · rw [ih e]
        cases (put σ.mem (σ.buf s) none (σ.buf t)).map cstr <;> rfl
  rw [run, e1]; dsimp only
  rw [run, step, e2]; dsimp only
  rw [run, step, if_pos (by exact hal), hr]

/-- C104, a change: whatever a program has done, as long as it has kept its strings, appending to
a string of the context of a source file makes the next read of the context crash. -/
theorem C104_changed (ops : List Op) (g : Given) (r : List (List Bytes)) (hk : Keeps (fun _ => none) ops)
    (h : Given.start.run ops = some (g, r)) {f : Nat} {ss : List Nat} (hf : given ops f = some ss) {s : Nat} (hs : s ∈ ss) (b : Bytes) :
    run start (ops ++ [.append s b, .read f]) = .error .crash := by
  obtain ⟨σ, h1, h2⟩ := run_agrees ops _ _ _ agrees_start hk g r h
  rw [run_append ops _ _ _ _ h1, crash_changed h2 hf hs b]
  rfl

/-- C104, a loss: the same if the program drops a string of the context and the garbage collector
frees it. -/
theorem C104_collected (ops : List Op) (g : Given) (r : List (List Bytes)) (hk : Keeps (fun _ => none) ops)
    (h : Given.start.run ops = some (g, r)) {f : Nat} {ss : List Nat} (hf : given ops f = some ss) {s : Nat} (hs : s ∈ ss) :
    run start (ops ++ [.lose s, .gc [s], .read f]) = .error .crash := by
  obtain ⟨σ, h1, h2⟩ := run_agrees ops _ _ _ agrees_start hk g r h
  rw [run_append ops _ _ _ _ h1, crash_lost h2 hf hs]
  rfl

example : Keeps (fun _ => none) (keeping.take 8) ∧ given (keeping.take 8) 0 = some [0] := by
  refine ⟨⟨?_, ?_, trivial⟩, by decide⟩
  · intro f ss; simp only [put]; split
    · intro e; cases e; simp
    · intro e; cases e
  · simp [put]

/-! ### The arrays -/

/-- The number of arrays of pointers that are allocated. -/
def arrays (σ : State) : Nat := (List.range σ.narr).countP fun a => (σ.arr a).isSome

/-- The number of source files that have a context. -/
def withContext (σ : State) : Nat := (List.range σ.nfile).countP fun f => σ.alive f && (σ.ptr f).isSome

/-- How often a program gives a context to a source file that has one. -/
def again (has : Nat → Bool) : List Op → Nat
  | [] => 0
  | .set f _ :: ops => (if has f then 1 else 0) + again (put has f true) ops
  | _ :: ops => again has ops

theorem count_put_ge {p : Nat → Bool} {k : Nat} {v : Bool} : ∀ {n : Nat}, n ≤ k →
    (List.range n).countP (put p k v) = (List.range n).countP p := by
  intro n h
  refine List.countP_congr fun x hx => ?_
  have := List.mem_range.mp hx
  rw [put_other _ _ (by omega)]

theorem count_put {p : Nat → Bool} {k : Nat} {v : Bool} : ∀ {n : Nat}, k < n →
    (List.range n).countP (put p k v) + (if p k then 1 else 0) = (List.range n).countP p + (if v then 1 else 0)
  | 0, h => by omega
  | n + 1, h => by
    rw [List.range_succ, List.countP_append, List.countP_append, List.countP_singleton, List.countP_singleton]
    by_cases e : k = n
    · subst e
      rw [count_put_ge (Nat.le_refl _), put_same]
      omega
    · have := count_put (p := p) (k := k) (v := v) (n := n) (by omega)
      rw [put_other _ _ (fun e' => e e'.symm)]
      omega

structure Owned (σ : State) (has : Nat → Bool) : Prop where
  born : ∀ f, σ.alive f = true → f < σ.nfile
  new : ∀ f, σ.nfile ≤ f → has f = false
  has : ∀ f, σ.alive f = true → (σ.ptr f).isSome = has f
  live : ∀ f a, σ.alive f = true → σ.ptr f = some a → a < σ.narr ∧ (σ.arr a).isSome = true
  own : ∀ f f' a, σ.alive f = true → σ.alive f' = true → σ.ptr f = some a → σ.ptr f' = some a → f = f'

theorem owned_start : Owned start fun _ => false := by
  constructor <;> simp [start]

/-- What an operation does to the table of contexts given. -/
def hasAfter (has : Nat → Bool) : Op → Nat → Bool
  | .set f _ => put has f true
  | _ => has

theorem again_cons (has : Nat → Bool) (op : Op) (ops : List Op) : again has (op :: ops) = again has [op] + again (hasAfter has op) ops := by
  cases op <;> simp [again, hasAfter]

theorem step_owned {σ σ' : State} {has : Nat → Bool} {op : Op} {r : List (List Bytes)} (H : Owned σ has)
    (h : step σ op = .ok (σ', r)) : Owned σ' (hasAfter has op) ∧
      arrays σ' + withContext σ = arrays σ + withContext σ' + again has [op] := by
  cases op with
  | str b => cases h; exact ⟨⟨H.born, H.new, H.has, H.live, H.own⟩, rfl⟩
  | append s b =>
    rw [step] at h
    split at h
    · cases h; exact ⟨⟨H.born, H.new, H.has, H.live, H.own⟩, rfl⟩
    · cases h
  | lose s =>
    rw [step] at h
    split at h
    · cases h; exact ⟨⟨H.born, H.new, H.has, H.live, H.own⟩, rfl⟩
    · cases h
  | gc which =>
    cases h
    obtain ⟨e1, e2, e3, e4, e5, e6, e7, e8, e9⟩ := collect_frame which σ
    refine ⟨⟨by rw [e5, e6]; exact H.born, by rw [e5]; exact H.new, by rw [e6, e7]; exact H.has, by rw [e6, e7, e8, e9]; exact H.live,
      by rw [e6, e7]; exact H.own⟩, ?_⟩
    unfold arrays withContext
    rw [e5, e6, e7, e8, e9]
    rfl
  | file =>
    cases h
    have hal : ∀ f, put σ.alive σ.nfile true f = true → put σ.ptr σ.nfile none f ≠ none → f ≠ σ.nfile ∧ σ.alive f = true := by
      intro f h1 h2
      by_cases e : f = σ.nfile
      · rw [e, put_same] at h2; exact absurd rfl h2
      · rw [put_other _ _ e] at h1; exact ⟨e, h1⟩
    refine ⟨⟨?_, ?_, ?_, ?_, ?_⟩, ?_⟩
    · intro f hf
      show f < σ.nfile + 1
      by_cases e : f = σ.nfile
      · omega
      · have hf : put σ.alive σ.nfile true f = true := hf
        rw [put_other _ _ e] at hf
        have := H.born f hf; omega
    · intro f hf
      exact H.new f (Nat.le_of_succ_le hf)
    · intro f hf
      have hf : put σ.alive σ.nfile true f = true := hf
      show (put σ.ptr σ.nfile none f).isSome = has f
      by_cases e : f = σ.nfile
      · rw [e, put_same, H.new _ (Nat.le_refl _)]; rfl
      · rw [put_other _ _ e] at hf ⊢; exact H.has f hf
    · intro f a hf hp
      have hp : put σ.ptr σ.nfile none f = some a := hp
      obtain ⟨e, hf⟩ := hal f hf (by rw [hp]; simp)
      rw [put_other _ _ e] at hp
      exact H.live f a hf hp
    · intro f f' a hf hf' hp hp'
      have hp : put σ.ptr σ.nfile none f = some a := hp
      have hp' : put σ.ptr σ.nfile none f' = some a := hp'
      obtain ⟨e, hf⟩ := hal f hf (by rw [hp]; simp)
      obtain ⟨e', hf'⟩ := hal f' hf' (by rw [hp']; simp)
      rw [put_other _ _ e] at hp
      rw [put_other _ _ e'] at hp'
      exact H.own f f' a hf hf' hp hp'
    · show arrays σ + withContext σ = arrays σ + (List.range (σ.nfile + 1)).countP
        (fun f => put σ.alive σ.nfile true f && (put σ.ptr σ.nfile none f).isSome) + 0
      rw [List.range_succ, List.countP_append, List.countP_singleton, put_same, put_same]
      have : (List.range σ.nfile).countP (fun f => put σ.alive σ.nfile true f && (put σ.ptr σ.nfile none f).isSome) = withContext σ := by
        refine List.countP_congr fun f hf => ?_
        have := List.mem_range.mp hf
        rw [put_other _ _ (by omega), put_other _ _ (by omega)]
      rw [this]; rfl
  | set f ss =>
    rw [step] at h
    split at h
    next hc =>
      cases h
      obtain ⟨hf, -⟩ := hc
      have hlt := H.born f hf
      refine ⟨⟨H.born, ?_, ?_, ?_, ?_⟩, ?_⟩
      · intro f' h
        show put has f true f' = false
        have h : σ.nfile ≤ f' := h
        rw [put_other _ _ (by omega)]; exact H.new f' h
      · intro f' h
        show (put σ.ptr f (some σ.narr) f').isSome = put has f true f'
        by_cases e : f' = f
        · rw [e, put_same, put_same]; rfl
        · rw [put_other _ _ e, put_other _ _ e]; exact H.has f' h
      · intro f' a h hp
        have hp : put σ.ptr f (some σ.narr) f' = some a := hp
        show a < σ.narr + 1 ∧ (put σ.arr σ.narr _ a).isSome = true
        by_cases e : f' = f
        · rw [e, put_same] at hp
          cases hp
          rw [put_same]; exact ⟨Nat.lt_succ_self _, rfl⟩
        · rw [put_other _ _ e] at hp
          have := H.live f' a h hp
          rw [put_other _ _ (by omega)]; exact ⟨by omega, this.2⟩
      · intro f1 f2 a h1 h2 p1 p2
        have p1 : put σ.ptr f (some σ.narr) f1 = some a := p1
        have p2 : put σ.ptr f (some σ.narr) f2 = some a := p2
        by_cases e1 : f1 = f <;> by_cases e2 : f2 = f
        · omega
        · rw [e1, put_same] at p1; rw [put_other _ _ e2] at p2
          cases p1
          have := (H.live f2 _ h2 p2).1; omega
        · rw [e2, put_same] at p2; rw [put_other _ _ e1] at p1
          cases p2
          have := (H.live f1 _ h1 p1).1; omega
        · rw [put_other _ _ e1] at p1; rw [put_other _ _ e2] at p2
          exact H.own f1 f2 a h1 h2 p1 p2
      · have e1 : arrays (σ.setFilenames f ss) = arrays σ + 1 := by
          show (List.range (σ.narr + 1)).countP (fun a => (put σ.arr σ.narr (some (ss.map σ.buf)) a).isSome) = _
          rw [List.range_succ, List.countP_append, List.countP_singleton, put_same]
          have : (List.range σ.narr).countP (fun a => (put σ.arr σ.narr (some (ss.map σ.buf)) a).isSome) = arrays σ := by
            refine List.countP_congr fun a ha => ?_
            have := List.mem_range.mp ha
            rw [put_other _ _ (by omega)]
          rw [this]; rfl
        have e2 : withContext (σ.setFilenames f ss) =
            (List.range σ.nfile).countP (put (fun f => σ.alive f && (σ.ptr f).isSome) f true) := by
          refine List.countP_congr fun f' _ => ?_
          show (σ.alive f' && (put σ.ptr f (some σ.narr) f').isSome) = true ↔ _
          by_cases e : f' = f
          · rw [e, put_same, put_same, hf]; simp
          · rw [put_other _ _ e, put_other _ _ e]
        have e3 := count_put (p := fun f => σ.alive f && (σ.ptr f).isSome) (v := true) hlt
        rw [← e2] at e3
        have e4 : withContext σ = (List.range σ.nfile).countP (fun f => σ.alive f && (σ.ptr f).isSome) := rfl
        rw [← e4] at e3
        have e5 : (σ.alive f && (σ.ptr f).isSome) = has f := by rw [hf, H.has f hf]; rfl
        simp only [e5, if_true] at e3
        show arrays (σ.setFilenames f ss) + _ = _ + ((if has f then 1 else 0) + 0)
        omega
    next => cases h
  | read f =>
    rw [step] at h
    split at h
    · split at h
      · cases h; exact ⟨H, rfl⟩
      · cases h
    · cases h
  | free f =>
    rw [step] at h
    split at h
    next hf =>
      cases h
      have hlt := H.born f hf
      have hal : ∀ f', put σ.alive f false f' = true → f' ≠ f ∧ σ.alive f' = true := by
        intro f' h
        by_cases e : f' = f
        · rw [e, put_same] at h; cases h
        · rw [put_other _ _ e] at h; exact ⟨e, h⟩
      refine ⟨⟨fun f' h => H.born f' (hal f' h).2, H.new, fun f' h => H.has f' (hal f' h).2, ?_, ?_⟩, ?_⟩
      · intro f' a h hp
        obtain ⟨e, h⟩ := hal f' h
        obtain ⟨h1, h2⟩ := H.live f' a h hp
        refine ⟨h1, ?_⟩
        show ((match σ.ptr f with | none => σ.arr | some a => put σ.arr a none) a).isSome = true
        cases hpf : σ.ptr f with
        | none => exact h2
        | some b =>
          show (put σ.arr b none a).isSome = true
          rw [put_other _ _ fun eb : a = b => e (H.own f' f a h hf hp (eb ▸ hpf))]; exact h2
      · intro f1 f2 a h1 h2
        exact H.own f1 f2 a (hal f1 h1).2 (hal f2 h2).2
      · have e2 : withContext (σ.freeFile f) =
            (List.range σ.nfile).countP (put (fun f => σ.alive f && (σ.ptr f).isSome) f false) := by
          refine List.countP_congr fun f' _ => ?_
          show (put σ.alive f false f' && (σ.ptr f').isSome) = true ↔ _
          by_cases e : f' = f
          · rw [e, put_same, put_same]; simp
          · rw [put_other _ _ e, put_other _ _ e]
        have e3 := count_put (p := fun f => σ.alive f && (σ.ptr f).isSome) (v := false) hlt
        rw [← e2] at e3
        have e4 : withContext σ = (List.range σ.nfile).countP (fun f => σ.alive f && (σ.ptr f).isSome) := rfl
        rw [← e4] at e3
        simp only [hf, Bool.true_and] at e3
        show arrays (σ.freeFile f) + _ = _ + 0
        cases hpf : σ.ptr f with
        | none =>
          have : arrays (σ.freeFile f) = arrays σ := by
            unfold arrays State.freeFile; rw [hpf]
          rw [hpf] at e3
          simp at e3
          omega
        | some a =>
          obtain ⟨h1, h2⟩ := H.live f a hf hpf
          have e6 : arrays (σ.freeFile f) = (List.range σ.narr).countP (put (fun a => (σ.arr a).isSome) a false) := by
            unfold arrays State.freeFile; rw [hpf]
            refine List.countP_congr fun x _ => ?_
            show (put σ.arr a none x).isSome = true ↔ _
            by_cases e : x = a
            · rw [e, put_same, put_same]; simp
            · rw [put_other _ _ e, put_other _ _ e]
          have e7 := count_put (p := fun a => (σ.arr a).isSome) (v := false) h1
          rw [← e6, show (List.range σ.narr).countP (fun a => (σ.arr a).isSome) = arrays σ from rfl] at e7
          simp only [h2] at e7
          rw [hpf] at e3
          simp at e3 e7
          omega
    next => cases h

theorem run_owned : ∀ (ops : List Op) (σ σ' : State) (has : Nat → Bool) (r : List (List Bytes)), Owned σ has →
    run σ ops = .ok (σ', r) → arrays σ' + withContext σ = arrays σ + withContext σ' + again has ops
  | [], σ, σ', has, r, _, h => by cases h; rfl
  | op :: ops, σ, σ', has, r, H, h => by
    rw [run] at h
    cases hs : step σ op with
    | error e => rw [hs] at h; cases h
    | ok p =>
      obtain ⟨σ1, r1⟩ := p
      rw [hs] at h
      dsimp only at h
      cases hr : run σ1 ops with
      | error e => rw [hr] at h; cases h
      | ok q =>
        obtain ⟨σ2, r2⟩ := q
        rw [hr] at h
        cases h
        obtain ⟨h1, h2⟩ := step_owned H hs
        have h3 := run_owned ops σ1 _ _ r2 h1 hr
        rw [again_cons]
        omega

/-- C104, what is lost: at every point of every program that did not crash the arrays allocated
are one for each source file that has a context, and one for each time a context was given to a
source file that had one. The latter are never freed. -/
theorem C104_arrays (ops : List Op) (σ : State) (r : List (List Bytes)) (h : run start ops = .ok (σ, r)) :
    arrays σ = withContext σ + again (fun _ => false) ops := by
  have := run_owned ops start σ _ r owned_start h
  have h1 : arrays start = 0 := rfl
  have h2 : withContext start = 0 := rfl
  omega

/-- The second context of a file is the one that is lost. -/
example : ((run start keeping).toOption.map fun p => (arrays p.1, withContext p.1)) = some (1, 0) ∧ again (fun _ => false) keeping = 1 := by
  decide

end Ohcount.Ruby
