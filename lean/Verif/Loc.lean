/-
Model of `src/loc.c` (Loc, LocList, LocDelta, LocDeltaList).

Conventions: a C linked list (`head`/`tail`/`next`) is a Lean `List` of its
entries in order; the empty list is the list whose `head` is NULL.  C `int`
counters are `Int` (no overflow).  A language is a C string; `strcmp(a,b)==0`
is equality of strings.
-/

namespace Ohcount

/-- `typedef struct {...} Loc`, src/structs.h (struct Loc). -/
structure Loc where
  language : String
  code : Int
  comments : Int
  blanks : Int
  filecount : Int
  deriving DecidableEq, Repr

namespace Loc

/-- `ohcount_loc_total`, src/loc.c:22-24. -/
def total (l : Loc) : Int := l.code + l.comments + l.blanks

/-- `ohcount_loc_add_loc`, src/loc.c:26-33 (does nothing for another language). -/
def addLoc (l other : Loc) : Loc :=
  if l.language = other.language then
    { l with
      code := l.code + other.code
      comments := l.comments + other.comments
      blanks := l.blanks + other.blanks
      filecount := l.filecount + other.filecount }
  else l

/-- `ohcount_loc_is_equal`, src/loc.c:35-39. -/
def isEqual (l other : Loc) : Bool :=
  decide (l.language = other.language) && decide (l.code = other.code) &&
  decide (l.comments = other.comments) && decide (l.blanks = other.blanks) &&
  decide (l.filecount = other.filecount)

end Loc

/-- `LocList`, src/structs.h: the entries from `head` along `next`. -/
abbrev LocList := List Loc

namespace LocList

/-- The search loop and update of `ohcount_loc_list_add_loc` for a non-empty
list, src/loc.c:63-76: the first entry with the same language is updated in
place, otherwise a copy of `loc` is linked after the tail. -/
def addLoc : LocList → Loc → LocList
  | [], loc => [loc]                                    -- loc.c:57-62 and 68-73
  | e :: rest, loc =>
    if e.language = loc.language then e.addLoc loc :: rest   -- loc.c:65, 75
    else e :: addLoc rest loc                                -- loc.c:66

/-- `ohcount_loc_list_add_loc_list`, src/loc.c:79-85, for two distinct lists
(adding a list to itself is not modelled here). -/
def addLocList (l other : LocList) : LocList := other.foldl addLoc l

/-- `ohcount_loc_list_get_loc`, src/loc.c:87-94. -/
def getLoc : LocList → String → Option Loc
  | [], _ => none
  | e :: rest, lang => if e.language = lang then some e else getLoc rest lang

/-- The shape of all summing loops, src/loc.c:96-144: `sum += f(iter)`. -/
def sumLoop (f : Loc → Int) (l : LocList) : Int := l.foldl (fun s e => s + f e) 0

/-- `ohcount_loc_list_code`, src/loc.c:96-104. -/
def code (l : LocList) : Int := sumLoop Loc.code l
/-- `ohcount_loc_list_comments`, src/loc.c:106-114. -/
def comments (l : LocList) : Int := sumLoop Loc.comments l
/-- `ohcount_loc_list_blanks`, src/loc.c:116-124. -/
def blanks (l : LocList) : Int := sumLoop Loc.blanks l
/-- `ohcount_loc_list_total`, src/loc.c:126-134. -/
def total (l : LocList) : Int := sumLoop Loc.total l
/-- `ohcount_loc_list_filecount`, src/loc.c:136-144. -/
def filecount (l : LocList) : Int := sumLoop Loc.filecount l

/-- `ohcount_loc_list_new_compact`, src/loc.c:146-155. -/
def newCompact (l : LocList) : LocList :=
  l.foldl (fun acc e => if e.total ≠ 0 then addLoc acc e else acc) []

end LocList

/-- `LocDelta`, src/structs.h. -/
structure LocDelta where
  language : String
  codeAdded : Int
  codeRemoved : Int
  commentsAdded : Int
  commentsRemoved : Int
  blanksAdded : Int
  blanksRemoved : Int
  deriving DecidableEq, Repr

namespace LocDelta

/-- `ohcount_loc_delta_net_code`, src/loc.c:186-188. -/
def netCode (d : LocDelta) : Int := d.codeAdded - d.codeRemoved
/-- `ohcount_loc_delta_net_comments`, src/loc.c:190-192. -/
def netComments (d : LocDelta) : Int := d.commentsAdded - d.commentsRemoved
/-- `ohcount_loc_delta_net_blanks`, src/loc.c:194-196. -/
def netBlanks (d : LocDelta) : Int := d.blanksAdded - d.blanksRemoved
/-- `ohcount_loc_delta_net_total`, src/loc.c:198-202. -/
def netTotal (d : LocDelta) : Int := d.netCode + d.netComments + d.netBlanks

/-- `ohcount_loc_delta_add_loc_delta`, src/loc.c:204-213. -/
def addDelta (d other : LocDelta) : LocDelta :=
  if d.language = other.language then
    { d with
      codeAdded := d.codeAdded + other.codeAdded
      codeRemoved := d.codeRemoved + other.codeRemoved
      commentsAdded := d.commentsAdded + other.commentsAdded
      commentsRemoved := d.commentsRemoved + other.commentsRemoved
      blanksAdded := d.blanksAdded + other.blanksAdded
      blanksRemoved := d.blanksRemoved + other.blanksRemoved }
  else d

/-- `ohcount_loc_delta_is_changed`, src/loc.c:215-219. -/
def isChanged (d : LocDelta) : Bool :=
  d.codeAdded != 0 || d.codeRemoved != 0 || d.commentsAdded != 0 ||
  d.commentsRemoved != 0 || d.blanksAdded != 0 || d.blanksRemoved != 0

end LocDelta

/-- `LocDeltaList`, src/structs.h. -/
abbrev LocDeltaList := List LocDelta

namespace LocDeltaList

/-- `ohcount_loc_delta_list_add_loc_delta`, src/loc.c:246-277.  The search loop
(line 260-263) tests `list->delta`, the delta of the *head* node, and not
`iter->delta`: if the head has the language the loop breaks at once with
`iter == head`, otherwise it runs off the end and a new entry is appended even
if a later entry already has that language. -/
def addDelta : LocDeltaList → LocDelta → LocDeltaList
  | [], d => [d]
  | head :: rest, d =>
    if head.language = d.language then head.addDelta d :: rest
    else head :: (rest ++ [d])

/-- `ohcount_loc_delta_list_add_loc_delta_list`, src/loc.c:279-286, for two
distinct lists. -/
def addDeltaList (l other : LocDeltaList) : LocDeltaList := other.foldl addDelta l

/-- `ohcount_loc_delta_list_get_loc_delta`, src/loc.c:288-296. -/
def getDelta : LocDeltaList → String → Option LocDelta
  | [], _ => none
  | e :: rest, lang => if e.language = lang then some e else getDelta rest lang

/-- The shape of all summing loops, src/loc.c:298-396. -/
def sumLoop (f : LocDelta → Int) (l : LocDeltaList) : Int :=
  l.foldl (fun s e => s + f e) 0

/-- src/loc.c:298-306 -/
def codeAdded (l : LocDeltaList) : Int := sumLoop LocDelta.codeAdded l
/-- src/loc.c:308-316 -/
def codeRemoved (l : LocDeltaList) : Int := sumLoop LocDelta.codeRemoved l
/-- src/loc.c:318-326 -/
def commentsAdded (l : LocDeltaList) : Int := sumLoop LocDelta.commentsAdded l
/-- src/loc.c:328-336 -/
def commentsRemoved (l : LocDeltaList) : Int := sumLoop LocDelta.commentsRemoved l
/-- src/loc.c:338-346 -/
def blanksAdded (l : LocDeltaList) : Int := sumLoop LocDelta.blanksAdded l
/-- src/loc.c:348-356 -/
def blanksRemoved (l : LocDeltaList) : Int := sumLoop LocDelta.blanksRemoved l
/-- src/loc.c:358-366 -/
def netCode (l : LocDeltaList) : Int := sumLoop LocDelta.netCode l
/-- src/loc.c:368-376 -/
def netComments (l : LocDeltaList) : Int := sumLoop LocDelta.netComments l
/-- src/loc.c:378-386 -/
def netBlanks (l : LocDeltaList) : Int := sumLoop LocDelta.netBlanks l
/-- src/loc.c:388-396 -/
def netTotal (l : LocDeltaList) : Int := sumLoop LocDelta.netTotal l

/-- `ohcount_loc_delta_list_new_compact`, src/loc.c:398-407. -/
def newCompact (l : LocDeltaList) : LocDeltaList :=
  l.foldl (fun acc e => if e.isChanged then addDelta acc e else acc) []

/-- `ohcount_loc_delta_list_add_loc_delta_list(list, list)`, src/loc.c:279-286
with both arguments the same list: the loop walks the very list it appends to.
`i` is the index of `iter`; `none` means the fuel ran out before the loop
ended. -/
def addSelfLoop : Nat → Nat → LocDeltaList → Option LocDeltaList
  | 0, _, _ => none
  | fuel + 1, i, l =>
    match l[i]? with
    | none => some l
    | some d => addSelfLoop fuel (i + 1) (addDelta l d)

end LocDeltaList

end Ohcount
