import Verif.GestaltLangs
/-
The Ruby library's search for the platforms and tools that a project uses ("gestalts"), ruby/gestalt.rb and ruby/gestalt/*.rb.

Left out: the reports on standard output, `GestaltFacts` (ruby/gestalt/gestalt_facts.rb, which nothing calls), `XmlKeywordRule` (not loaded),
`Rule#==` and `Rule.to_sym`.  An exception is the outcome `none`.  Ruby strings are `String`s, whether they hold a name or a text.
-/

namespace Ohcount.Gestalt

/-- A regular expression: its source and whether it ignores case. -/
structure Re where
  src : String
  icase : Bool := false
  deriving DecidableEq, Repr

/-- What REXML's stream parser reports: `tag_start(name, attrs)`, `tag_end(name)` and `text(text)`. -/
inductive Event where
  | tagStart (name : String) (attrs : List (String × String))
  | tagEnd (name : String)
  | text (t : String)
  deriving DecidableEq, Repr

/-- What is not part of the library: Ruby's regular expressions and REXML.  A parameter of the model. -/
structure Ruby where
  /-- `Regexp#match`: the whole match and the groups. -/
  groups : Re → String → Option (List (Option String))
  /-- `String#scan`: for each match, the groups (or the match, if there are none). -/
  scan : Re → String → List (List (Option String))
  /-- `REXML::Document.parse_stream`: the events until the end of the document or a `ParseException`. -/
  xml : String → List Event

/-- `=~`. -/
def Ruby.is (R : Ruby) (re : Re) (s : String) : Bool := (R.groups re s).isSome

/-- `nil =~ re` is `nil`. -/
def Ruby.isOpt (R : Ruby) (re : Re) : Option String → Bool
  | none => false
  | some s => R.is re s

/-- What the rules look at in an element of `language_breakdowns`, ruby/ohcount.rb:26-29: `name`, `code` and `code_count`. -/
structure Breakdown where
  name : String
  code : String
  codeCount : Nat
  deriving DecidableEq, Repr

/-- What the rules look at in a `SourceFile`: `filepath`, `filename`, `polyglot` and `language_breakdowns`. -/
structure Source where
  filepath : String
  filename : String
  polyglot : Option String
  breakdowns : List Breakdown
  deriving DecidableEq, Repr

/-- `language_breakdown`, ruby/ohcount.rb:31-33. -/
def Source.breakdown (f : Source) (language : String) : Option Breakdown := f.breakdowns.find? fun lb => lb.name == language

/-! ### Maven and project files -/

/-- The whitespace (and NUL at the end) that `strip` removes. -/
def isSpace (c : Char) : Bool := c == ' ' || c == '\t' || c == '\n' || c == '\x0b' || c == '\x0c' || c == '\r' || c == '\x00'

/-- `gsub(/\$\{.*\}/, '')` on one line: from the first `${` that is followed by a `}` to the last `}`. -/
def dropVars : List Char → List Char
  | '$' :: '{' :: l =>
    let tail := (l.reverse.takeWhile (· ≠ '}')).reverse
    if tail.length < l.length then tail else '$' :: '{' :: l
  | c :: l => c :: dropVars l
  | [] => []

/-- `dropVars` on each line: `.` does not match a line feed. -/
def dropLines : List Char → List Char → List Char
  | line, [] => dropVars line
  | line, c :: l => if c = '\n' then dropVars line ++ '\n' :: dropLines [] l else dropLines (line ++ [c]) l

/-- `clean`, ruby/gestalt/rules/maven_parser.rb:45-47. -/
def clean (s : String) : String :=
  String.ofList (dropLines [] ((s.toList.dropWhile isSpace).reverse.dropWhile isSpace).reverse)

/-- The instance variables of a `MavenListener`, ruby/gestalt/rules/maven_parser.rb:8-14. -/
structure Maven where
  isPom : Bool := false
  group : Option String := none
  artifact : Option String := none
  text : Option String := none
  deriving DecidableEq, Repr

/-- A call of `@callback`: type, group and artifact. -/
abbrev Dep := String × String × String

/-- `attrs['xmlns'] and attrs['xmlns'] !~ re`, ruby/gestalt/rules/maven_parser.rb:20, csproj_parser.rb:18. -/
def otherNamespace (R : Ruby) (re : Re) (attrs : List (String × String)) : Bool :=
  match attrs.lookup "xmlns" with
  | none => false
  | some ns => !R.is re ns

def pomNamespace : Re := ⟨"^http://maven\\.apache\\.org/POM/", false⟩

/-- `tag_start`, `tag_end` and `text`, ruby/gestalt/rules/maven_parser.rb:16-51.  `none`: `clean(nil)` raises `NoMethodError`. -/
def Maven.event (R : Ruby) (m : Maven) : Event → Option (Maven × List Dep)
  | .tagStart name attrs =>
    if name = "project" then some ({ m with isPom := !otherNamespace R pomNamespace attrs }, [])
    else if name = "plugin" ∨ name = "dependency" then some ({ m with group := none, artifact := none }, [])
    else some (m, [])
  | .tagEnd name =>
    if name = "groupId" then
      match m.text with
      | none => none
      | some t => some ({ m with group := some (clean t) }, [])
    else if name = "artifactId" then
      match m.text with
      | none => none
      | some t => some ({ m with artifact := some (clean t) }, [])
    else if name = "plugin" ∨ name = "dependency" then
      match m.isPom, m.group, m.artifact with
      | true, some g, some a => some (m, [(name, g, a)])
      | _, _, _ => some (m, [])
    else some (m, [])
  | .text t => some ({ m with text := some t }, [])

/-- The calls of the callback for a sequence of events. -/
def Maven.events (R : Ruby) : Maven → List Event → Option (List Dep)
  | _, [] => some []
  | m, e :: es => do
    let (m, ds) ← m.event R e
    let r ← Maven.events R m es
    pure (ds ++ r)

def csprojNamespace : Re := ⟨"^http://schemas\\.microsoft\\.com/developer/", false⟩

/-- `CsprojListener`, ruby/gestalt/rules/csproj_parser.rb:9-27: the imports of a sequence of events. -/
def csprojEvents (R : Ruby) : Bool → List Event → List String
  | _, [] => []
  | b, .tagStart name attrs :: es =>
    if name = "Project" then csprojEvents R (!otherNamespace R csprojNamespace attrs) es
    else if name = "Import" then
      match b, attrs.lookup "Project" with
      | true, some i => i :: csprojEvents R b es
      | _, _ => csprojEvents R b es
    else csprojEvents R b es
  | b, _ :: es => csprojEvents R b es

/-! ### Rules -/

/-- The kinds of rules about files, with what their constructors keep.  `findFilenames` has the number of a group, `keyword` the language. -/
inductive Test where
  | filename (names : List String)
  | findFilenames (re : Re) (group : Nat)
  | cHeader (headers : List String)
  | keyword (language : Option String) (words : List String)
  | cKeyword (words : List String)
  | javaImport (re : Re)
  | csharpUsing (re : Re)
  | maven (type : String) (group artifact : Re)
  | csproj (imp : Re)
  deriving DecidableEq, Repr

/-- `regex`, ruby/gestalt/rules/filename_rule.rb:17-22. -/
def filenameRe (names : List String) : Re := ⟨"|".intercalate (names.map fun f => "(" ++ f ++ ")"), false⟩

/-- `regexp`, ruby/gestalt/rules/c_header_rule.rb:23-28.  `\s` in a string with double quotes is a blank. -/
def headerRe (headers : List String) : Re := ⟨"include +['<\"](" ++ "|".intercalate headers ++ ")[\">']", true⟩

/-- `regexp`, ruby/gestalt/rules/keyword_rule.rb:34-38. -/
def keywordRe (words : List String) : Re := ⟨"(" ++ "|".intercalate words ++ ")", false⟩

/-- ruby/gestalt/rules/java_import_rule.rb:24. -/
def importRe : Re := ⟨"^\\s*import\\s+([a-zA-Z][\\w\\.\\*\\-]*)\\b", false⟩

/-- ruby/gestalt/rules/csharp_using_rule.rb:21. -/
def usingRe : Re := ⟨"^\\s*using\\s+([a-zA-Z][\\w\\.\\*\\-]*)\\s*;", false⟩

/-- ruby/gestalt/rules/maven_rule.rb:28. -/
def pomRe : Re := ⟨"\\bpom\\.xml$", false⟩

/-- ruby/gestalt/rules/csproj_rule.rb:16. -/
def csprojRe : Re := ⟨"\\.csproj$", false⟩

/-- The number of matches of `re` in `s` whose first group matches `re'`. -/
def scanCount (R : Ruby) (re re' : Re) (s : String) : Nat := (R.scan re s).countP fun m => R.isOpt re' (m.headD none)

/-- What `process_source_file` adds to `@count`: ruby/gestalt/rules/filename_rule.rb:13-15, find_filenames_rule.rb:24-29 (which counts nothing),
c_header_rule.rb:13-21, keyword_rule.rb:22-32, c_keyword_rule.rb:9-15, java_import_rule.rb:13-21, csharp_using_rule.rb:12-18,
maven_rule.rb:21-35, csproj_rule.rb:15-27. -/
def Test.hits (R : Ruby) (f : Source) : Test → Option Nat
  | .filename names => some (if R.is (filenameRe names) f.filepath then 1 else 0)
  | .findFilenames _ _ => some 0
  | .cHeader headers =>
    if f.polyglot = some "c" ∨ f.polyglot = some "cpp" then
      some ((["c", "cpp"].map fun lang =>
        match f.breakdown lang with
        | none => 0
        | some lb =>
          match R.groups (headerRe headers) lb.code with
          | none => 0
          | some md => md.length).sum)
    else some 0
  | .keyword (some language) words =>
    match f.breakdown language with
    | none => some 0
    | some lb => some (R.scan (keywordRe words) lb.code).length
  | .keyword none words => some ((f.breakdowns.map fun lb => (R.scan (keywordRe words) lb.code).length).sum)
  | .cKeyword words =>
    match f.breakdown "c" with
    | some lb => some (R.scan (keywordRe words) lb.code).length
    | none =>
      match f.breakdown "cpp" with
      | some lb => some (R.scan (keywordRe words) lb.code).length
      | none => some 0
  | .javaImport re =>
    match f.breakdown "java" with
    | none => some 0
    | some lb => some (scanCount R importRe re lb.code)
  | .csharpUsing re =>
    match f.breakdown "csharp" with
    | none => some 0
    | some lb => some (scanCount R usingRe re lb.code)
  | .maven type group artifact =>
    if R.is pomRe f.filename then
      match f.breakdown "xml" with
      | none => some 0
      | some lb => do
        let ds ← Maven.events R {} (R.xml lb.code)
        pure (ds.countP fun d => d.1 = type && R.is group d.2.1 && R.is artifact d.2.2)
    else some 0
  | .csproj imp =>
    if R.is csprojRe f.filename then
      match f.breakdown "xml" with
      | none => some 0
      | some lb => some ((csprojEvents R false (R.xml lb.code)).countP fun i => R.is imp i)
    else some 0

/-- The names of the triggers that `process_source_file` adds to `@triggers`, ruby/gestalt/rules/find_filenames_rule.rb:24-29. -/
def Test.finds (R : Ruby) (f : Source) : Test → List (Option String)
  | .findFilenames re group =>
    match R.groups re f.filename with
    | none => []
    | some m => [m.getD group none]
  | _ => []

/-- A `FileRule` with its instance variables, ruby/gestalt/rules/file_rule.rb:9-21. -/
structure FileRule where
  test : Test
  min : Nat := 1
  count : Nat := 0
  triggers : List (Option String) := []
  deriving DecidableEq, Repr

/-- `process_source_file`. -/
def FileRule.process (R : Ruby) (f : Source) (r : FileRule) : Option FileRule := do
  let n ← r.test.hits R f
  pure { r with count := r.count + n, triggers := r.triggers ++ r.test.finds R f }

/-- `Trigger`, ruby/gestalt/trigger.rb:3-11. -/
structure Trigger where
  name : Option String := none
  count : Nat := 1
  deriving DecidableEq, Repr

/-- `triggers`, ruby/gestalt/rules/file_rule.rb:24-30, find_filenames_rule.rb:20-22. -/
def FileRule.triggersOf (r : FileRule) : List Trigger :=
  match r.test with
  | .findFilenames _ _ => r.triggers.map fun n => { name := n }
  | _ => if r.min ≤ r.count then [{}] else []

/-- A rule: ruby/gestalt/rules/or_rule.rb, and_rule.rb, not_rule.rb, gestalt_rule.rb, language_rule.rb and the rules about files. -/
inductive Rule where
  | or (rules : List Rule)
  | and (rules : List Rule)
  | not (rules : List Rule)
  | gestalt (type name : String)
  | language (language : String) (minPercent : Nat)
  | file (r : FileRule)

mutual
/-- `process_source_file` of all rules about files in the rule, ruby/gestalt/gestalt_engine.rb:22-25. -/
def Rule.process (R : Ruby) (f : Source) : Rule → Option Rule
  | .or rs => do pure (.or (← processAll R f rs))
  | .and rs => do pure (.and (← processAll R f rs))
  | .not rs => do pure (.not (← processAll R f rs))
  | .file r => do pure (.file (← r.process R f))
  | r => some r
def processAll (R : Ruby) (f : Source) : List Rule → Option (List Rule)
  | [] => some []
  | r :: rs => do
    let r ← r.process R f
    let rs ← processAll R f rs
    pure (r :: rs)
end

/-! ### Languages -/

/-- `@language_counts`, ruby/gestalt/gestalt_engine.rb:92-100, in the order of insertion. -/
abbrev Counts := List (String × Nat)

/-- `@language_counts[name] ||= 0; @language_counts[name] += n`, ruby/gestalt/gestalt_engine.rb:98-99. -/
def addCount : Counts → String → Nat → Counts
  | [], name, n => [(name, n)]
  | (k, v) :: c, name, n => if k = name then (k, v + n) :: c else (k, v) :: addCount c name n

/-- `LanguageFacts#process_source_file`, ruby/gestalt/gestalt_engine.rb:96-101. -/
def countLanguages (c : Counts) (f : Source) : Counts := f.breakdowns.foldl (fun c lb => addCount c lb.name lb.codeCount) c

/-- The loop of `language_percents` over the languages, ruby/gestalt/gestalt_engine.rb:111-117. -/
def totalCode (c : Counts) : Nat :=
  (c.map fun (name, n) =>
    match categories.lookup name with
    | none => 0
    | some cat => if cat = 1 then 0 else n).sum

/-- `includes_language?`, ruby/gestalt/gestalt_engine.rb:103-126.  The share is compared as a fraction, not as a floating point number; a positive
number divided by 0 is infinity, and 0 divided by 0 is not a number.  The shares are kept after the first question (`@language_percents`), which
makes no difference as no file is processed after it. -/
def includesLanguage (c : Counts) (language : String) (minPercent : Nat) : Bool :=
  match c.lookup language with
  | none => false
  | some v => if totalCode c = 0 then 0 < v else minPercent * totalCode c ≤ 100 * v

/-! ### The engine -/

/-- `Base`, ruby/gestalt/base.rb:4-11. -/
structure Gestalt where
  type : String
  name : String
  count : Nat := 1
  deriving DecidableEq, Repr

/-- `has_gestalt?`, ruby/gestalt/gestalt_engine.rb:76-81. -/
def hasGestalt (gs : List Gestalt) (type name : String) : Bool := gs.any fun g => g.type == type && g.name == name

mutual
/-- `triggers`: ruby/gestalt/rules/or_rule.rb:5-11, and_rule.rb:6-11, not_rule.rb:4-6, gestalt_rule.rb:13-19, language_rule.rb:16-22. -/
def Rule.triggers (c : Counts) (gs : List Gestalt) : Rule → List Trigger
  | .or rs => firstTriggers c gs rs
  | .and rs => if allTrigger c gs rs then [{}] else []
  | .not [] => [{}]
  | .not (r :: _) => if (r.triggers c gs).isEmpty then [{}] else []
  | .gestalt type name => if hasGestalt gs type name then [{}] else []
  | .language l m => if includesLanguage c l m then [{}] else []
  | .file r => r.triggersOf
def firstTriggers (c : Counts) (gs : List Gestalt) : List Rule → List Trigger
  | [] => []
  | r :: rs => if (r.triggers c gs).isEmpty then firstTriggers c gs rs else r.triggers c gs
def allTrigger (c : Counts) (gs : List Gestalt) : List Rule → Bool
  | [] => true
  | r :: rs => if (r.triggers c gs).isEmpty then false else allTrigger c gs rs
end

/-- `Definition`, ruby/gestalt/definition.rb:24-35.  `rules` are the rules of `@top_level_or`. -/
structure Definition where
  type : String
  name : String
  rules : List Rule

/-- `gestalts`, ruby/gestalt/definition.rb:37-41. -/
def Definition.gestalts (c : Counts) (gs : List Gestalt) (d : Definition) : List Gestalt :=
  (firstTriggers c gs d.rules).map fun t => ⟨d.type, t.name.getD d.name, t.count⟩

/-- `GestaltEngine`, ruby/gestalt/gestalt_engine.rb:9-20. -/
structure Engine where
  defs : List Definition
  gestalts : List Gestalt := []
  counts : Counts := []

/-- `process_source_file`, ruby/gestalt/gestalt_engine.rb:22-27, for the definitions. -/
def processDefs (R : Ruby) (f : Source) : List Definition → Option (List Definition)
  | [] => some []
  | d :: ds => do
    let rs ← processAll R f d.rules
    let ds ← processDefs R f ds
    pure ({ d with rules := rs } :: ds)

/-- `process_source_file`, ruby/gestalt/gestalt_engine.rb:22-27. -/
def Engine.processFile (R : Ruby) (f : Source) (e : Engine) : Option Engine := do
  let defs ← processDefs R f e.defs
  pure { e with defs := defs, counts := countLanguages e.counts f }

/-- The files of `analyze_gestalt`, ruby/gestalt.rb:33-37. -/
def Engine.processFiles (R : Ruby) : List Source → Engine → Option Engine
  | [], e => some e
  | f :: fs, e => do
    let e ← e.processFile R f
    e.processFiles R fs

/-- The loop of `calc_gestalts` over the definitions, ruby/gestalt/gestalt_engine.rb:55-64: `@gestalts` and the definitions that are kept. -/
def pass (c : Counts) : List Gestalt → List Definition → List Gestalt × List Definition
  | gs, [] => (gs, [])
  | gs, d :: ds =>
    if (d.gestalts c gs).isEmpty then
      let (gs', ds') := pass c gs ds
      (gs', d :: ds')
    else pass c (gs ++ d.gestalts c gs) ds

/-- The outer loop of `calc_gestalts`, ruby/gestalt/gestalt_engine.rb:50-71; it is not said to end. -/
def calcLoop (c : Counts) (count : Nat) (gs : List Gestalt) (ds : List Definition) : Option (List Gestalt × List Definition) :=
  let (gs', ds') := pass c gs ds
  if count = gs'.length then some (gs', ds')
  else calcLoop c gs'.length gs' ds'
partial_fixpoint

/-- `calc_gestalts`, ruby/gestalt/gestalt_engine.rb:46-74. -/
def Engine.calc (e : Engine) : Option Engine := do
  let (gs, ds) ← calcLoop e.counts 0 e.gestalts e.defs
  pure { e with gestalts := gs, defs := ds }

/-- `analyze_gestalt` and `gestalts`, ruby/gestalt.rb:31-43: the gestalts of a list of source files. -/
def analyze (R : Ruby) (defs : List Definition) (files : List Source) : Option (List Gestalt) := do
  let e ← Engine.processFiles R files { defs := defs }
  let e ← e.calc
  pure e.gestalts

end Ohcount.Gestalt
