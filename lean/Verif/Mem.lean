import Verif.SourceFile
/-
The linked lists of `src/loc.c` in memory: blocks, pointers, `malloc` and `free`.  `Loc.lean` takes the lists for Lean lists; here they are
nodes with the fields `head`, `tail` and `next`, and reading or freeing what is not allocated has no result.
-/

namespace Ohcount.Mem

/-- An address; 0 is NULL. -/
abbrev Ptr := Nat

/-- A node of a `LocList`, `LocDeltaList`, `ParsedLanguageList`, `LicenseList` or `SourceFileList`, src/structs.h: `loc`, `delta`, `pl` or
`sf` (here `item`), `next`, `head`, `tail`.  `lic` of a `LicenseList` points to an entry of the static table `license_map`; here it is
the name of the license. -/
structure Node where
  item : Ptr := 0
  next : Ptr := 0
  head : Ptr := 0
  tail : Ptr := 0
  lic : String := ""

/-- `SourceFile`, src/structs.h:238-309, without `filenames`; `parts` stands for `filename`, `ext` and `dirpath`. -/
structure FileRec where
  filepath : Ptr := 0
  diskpath : Ptr := 0
  contents : Ptr := 0
  size : Int := -1
  language : Option String := none
  detected : Bool := false
  parsed : Ptr := 0
  licenses : Ptr := 0
  locs : Ptr := 0
  parts : PathParts

/-- What a block of memory holds.  Simplified: a `ParsedLanguage` and its buffers `code` and `comments`, which are allocated and freed
together (src/parsed_language.c:9-24, 48-52), are one block; a string is held without its final NUL. -/
inductive Cell where
  | loc (v : Loc)
  | delta (v : LocDelta)
  | node (n : Node)
  | pl (v : ParsedLanguage)
  | text (b : Bytes)
  | file (f : FileRec)

/-- The allocated blocks.  Simplified: a block has one address, there are no pointers into blocks. -/
abbrev Mem := Ptr → Option Cell

/-- A piece of a program.  No result: NULL or a block that is not allocated is read, written or freed, a block is used as something it is
not, or the program does not stop. -/
abbrev M := StateT Mem Option

def put (m : Mem) (p : Ptr) (c : Option Cell) : Mem := fun a => if a = p then c else m a

/-- How `malloc` chooses an address.  It may be one that was in use before. -/
abbrev Alloc := Mem → Ptr

/-- `malloc` (which does not fail) and the assignments to all fields that follow it in all functions of `src/loc.c` that call it. -/
def malloc (al : Alloc) (c : Cell) : M Ptr := fun m => some (al m, put m (al m) (some c))

/-- `free`: of NULL nothing. -/
def free (p : Ptr) : M Unit := fun m => if p = 0 then some ((), m) else match m p with
  | some _ => some ((), put m p none)
  | none => none

def getNode (p : Ptr) : M Node := fun m => match m p with
  | some (.node n) => some (n, m)
  | _ => none

def setNode (p : Ptr) (n : Node) : M Unit := fun m => match m p with
  | some (.node _) => some ((), put m p (some (.node n)))
  | _ => none

/-- What the two kinds of lists have in common: how an entry lies in memory, its language, `ohcount_loc_add_loc` (src/loc.c:26-33) or
`ohcount_loc_delta_add_loc_delta` (src/loc.c:204-213), and whether the search for an entry looks at the first node only
(src/loc.c:260-263; see `LocDeltaList.addDelta`). -/
structure Entry (V : Type) where
  cell : V → Cell
  value : Cell → Option V
  back : ∀ v, value (cell v) = some v
  apart : ∀ v n, cell v ≠ .node n
  lang : V → String
  merge : V → V → V
  headOnly : Bool

def locEntry : Entry Loc := ⟨.loc, fun c => match c with | .loc v => some v | _ => none, fun _ => rfl, (fun _ _ h => nomatch h), Loc.language, Loc.addLoc, false⟩

def deltaEntry : Entry LocDelta :=
  ⟨.delta, fun c => match c with | .delta v => some v | _ => none, fun _ => rfl, (fun _ _ h => nomatch h), LocDelta.language, LocDelta.addDelta, true⟩

variable {V : Type} (E : Entry V) (al : Alloc)

def getItem (p : Ptr) : M V := fun m => match (m p).bind E.value with
  | some v => some (v, m)
  | none => none

def setItem (p : Ptr) (v : V) : M Unit := fun m => match (m p).bind E.value with
  | some _ => some ((), put m p (some (E.cell v)))
  | none => none

/-- `ohcount_loc_new`, src/loc.c:11-20; `ohcount_loc_delta_new`, src/loc.c:171-184. -/
def itemNew (v : V) : M Ptr := malloc al (E.cell v)

/-- `ohcount_loc_add_loc`, src/loc.c:26-33; `ohcount_loc_delta_add_loc_delta`, src/loc.c:204-213.  Simplified: the fields are added at once. -/
def itemAdd (p other : Ptr) : M Unit := do
  let a ← getItem E p
  let b ← getItem E other
  setItem E p (E.merge a b)

/-- `ohcount_loc_list_new`, src/loc.c:47-54; `ohcount_loc_delta_list_new`, src/loc.c:237-244. -/
def listNew : M Ptr := malloc al (.node {})

/-- The search of `ohcount_loc_list_add_loc`, src/loc.c:64-68, and `ohcount_loc_delta_list_add_loc_delta`, src/loc.c:259-263: the first
node from `iter` on whose entry, or from which on the entry of the first node, has the language of `*loc`. -/
def search (list loc iter : Ptr) : M Ptr := do
  if iter = 0 then pure 0 else
    let it ← getNode iter
    let look ← getNode (if E.headOnly then list else iter)
    if look.item ≠ 0 then
      let a ← getItem E look.item
      let b ← getItem E loc
      if E.lang a = E.lang b then pure iter else search list loc it.next
    else search list loc it.next
partial_fixpoint

/-- What is done to an empty list of any kind to add the first item, which `mk` makes: src/loc.c:58-62 and 248-257, src/sourcefile.c:157-161
and 358-361, src/licenses.c:869-872. -/
def first (list : Ptr) (lic : String) (mk : M Ptr) : M Ptr := do
  let n ← getNode list
  setNode list { n with head := list, tail := list }
  let x ← mk
  let n ← getNode list
  let h ← getNode n.head
  setNode n.head { h with item := x, lic := lic, next := 0 }
  pure x

/-- What is done to add an item to a list that is not empty: src/loc.c:69-73 and 265-274, src/sourcefile.c:173-176 and 363-366,
src/licenses.c:874-877. -/
def append (list : Ptr) (lic : String) (mk : M Ptr) : M Ptr := do
  let item ← listNew al
  let x ← mk
  let i ← getNode item
  setNode item { i with item := x, lic := lic }
  let n ← getNode list
  let t ← getNode n.tail
  setNode n.tail { t with next := item }
  let n ← getNode list
  setNode list { n with tail := item }
  pure x

/-- The copy of `*loc` that a list gets, src/loc.c:60-61, 70-71, 250-256 and 266-272. -/
def copyItem (loc : Ptr) : M Ptr := do
  let v ← getItem E loc
  itemNew E al v

/-- `ohcount_loc_list_add_loc`, src/loc.c:56-77; `ohcount_loc_delta_list_add_loc_delta`, src/loc.c:246-277. -/
def listAdd (list loc : Ptr) : M Unit := do
  let n ← getNode list
  if n.head = 0 then
    let _ ← first list "" (copyItem E al loc)
    pure ()
  else
    let iter ← search E list loc n.head
    if iter = 0 then
      let _ ← append al list "" (copyItem E al loc)
      pure ()
    else
      let it ← getNode iter
      itemAdd E it.item loc

/-- The loop of `ohcount_loc_list_add_loc_list`, src/loc.c:81-84, and `ohcount_loc_delta_list_add_loc_delta_list`, src/loc.c:282-285; with a
condition, that of the `_new_compact` functions, src/loc.c:149-153 and 401-405. -/
def addEach (cond : V → Bool) (list iter : Ptr) : M Unit := do
  if iter = 0 then pure () else
    let it ← getNode iter
    let v ← getItem E it.item
    if cond v then listAdd E al list it.item
    let it ← getNode iter
    addEach cond list it.next
partial_fixpoint

/-- `ohcount_loc_list_add_loc_list`, src/loc.c:79-85; `ohcount_loc_delta_list_add_loc_delta_list`, src/loc.c:279-286. -/
def listAddList (list other : Ptr) : M Unit := do
  let o ← getNode other
  addEach E al (fun _ => true) list o.head

/-- `ohcount_loc_list_new_compact`, src/loc.c:146-155, with `ohcount_loc_total(..) != 0`; `ohcount_loc_delta_list_new_compact`,
src/loc.c:398-407, with `ohcount_loc_delta_is_changed`. -/
def listCompact (cond : V → Bool) (list : Ptr) : M Ptr := do
  let new ← listNew al
  let l ← getNode list
  addEach E al cond new l.head
  pure new

/-- The loop of `ohcount_loc_list_get_loc`, src/loc.c:88-93, and `ohcount_loc_delta_list_get_loc_delta`, src/loc.c:290-295. -/
def getFrom (lang : String) (iter : Ptr) : M Ptr := do
  if iter = 0 then pure 0 else
    let it ← getNode iter
    let v ← getItem E it.item
    if E.lang v = lang then pure it.item else getFrom lang it.next
partial_fixpoint

/-- `ohcount_loc_list_get_loc`, src/loc.c:87-94; `ohcount_loc_delta_list_get_loc_delta`, src/loc.c:288-296.  NULL if there is none. -/
def listGet (lang : String) (list : Ptr) : M Ptr := do
  let l ← getNode list
  getFrom E lang l.head

/-- The loops of the sums, src/loc.c:96-144 and 298-396. -/
def sumFrom (f : V → Int) (iter : Ptr) (sum : Int) : M Int := do
  if iter = 0 then pure sum else
    let it ← getNode iter
    let v ← getItem E it.item
    sumFrom f it.next (sum + f v)
partial_fixpoint

/-- `ohcount_loc_list_code` and the other sums, src/loc.c:96-144 and 298-396. -/
def listSum (f : V → Int) (list : Ptr) : M Int := do
  let l ← getNode list
  sumFrom E f l.head 0

/-- The loop of `ohcount_loc_list_free`, src/loc.c:159-165, and `ohcount_loc_delta_list_free`, src/loc.c:411-417. -/
def freeFrom (iter : Ptr) : M Unit := do
  if iter = 0 then pure () else
    let it ← getNode iter
    free it.item
    free iter
    freeFrom it.next
partial_fixpoint

/-- `ohcount_loc_list_free`, src/loc.c:157-167; `ohcount_loc_delta_list_free`, src/loc.c:409-419. -/
def listFree (list : Ptr) : M Unit := do
  let l ← getNode list
  if l.head ≠ 0 then freeFrom l.head else free list

end Ohcount.Mem
