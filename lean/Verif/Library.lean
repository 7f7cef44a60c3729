import Verif.DetectorProps
import Verif.Licenses
import Verif.ParserProps
import Verif.EmbedProps
/-
The parameters of `SourceFile.lean` filled in with the models of the other modules: the library as a whole.
-/

namespace Ohcount

/-- What of the machine and of other libraries the results depend on: libmagic and three regular expressions, the PCRE
engine with the license expressions, accesses just outside a local array, the byte before the path, and fresh memory. -/
structure Host where
  oracles : Detector.Oracles
  engine : Licenses.Engine
  stack : Detector.Stack
  before : Byte
  junk : Byte
  junkPs : Int × Int

/-- `ohcount_parse`, src/parser.c:12-31, in counting mode, for all 124 parsers.  What earlier calls have left in the static
variables makes no difference (C40, C66). -/
def parseText (lang : String) (text : Bytes) : List Report :=
  match Ragel.ohcountParse lang {} text with
  | some rs => rs
  | none => match Ragel.embParserOf lang with
    | some P => P.callbacks {} text
    | none => []

/-- `ohcount_detect_language` (src/detector.c:120-225), the tables of `src/hash`, the parsers (src/parser.c:12-31,
src/parsers/*.rl) and `ohcount_detect_license` (src/licenses.c:778-886) for `ohcount_sourcefile_*`.  Simplified: where the
model of detection is undefined, the language is `NULL`, and where that of the licenses is, there are none; the contents are
said to be read by detection unless the extension alone decides; `filenames` is not set. -/
def library (mc : Host) : Env where
  detect s disk :=
    let i : Detector.Input :=
      { filepath := s.filepath, parts := s.parts, diskpath := s.diskpath, contents := (s.loadContents disk).contents, filenames := none }
    ((Detector.detect mc.oracles mc.stack mc.before i).getD none,
      match Detector.byExt i.ext with
      | some (.lang _) => false
      | some .binary => false
      | _ => true)
  knownName n := Detector.fromName (Detector.bs n)
  hasParser lang := Tables.parsers.any fun x => x.1 == Ragel.bytes lang
  parse lang c n := parseText lang ((c.getD []).take n.toNat)
  detectLicenses pls := (Licenses.detectLicense mc.engine mc.junk mc.junkPs Licenses.licenseMap pls).getD []
  junk := mc.junk

end Ohcount
