import Verif.Lexis

/-!
The comments and strings of languages, as the scanners in /repo/src/parsers are meant to
recognise them.  Each entry cites the file whose patterns it describes.
-/

namespace Ohcount.Ragel
namespace LexisTable

/-- The bytes of a delimiter. -/
def s (x : String) : List Nat := x.toList.map Char.toNat

/-- A comment up to the end of the line. -/
def toEol (op : String) : Construct := { op := s op, cl := [], lab := .lcomment }
/-- The same, continued by a backslash at the end of the line. -/
def toEolCont (op : String) : Construct :=
  { op := s op, cl := [], lab := .lcomment, esc := true, pairs := false, escNl := true, escMark := true }
/-- A comment between delimiters, which may span lines. -/
def block (op cl : String) : Construct := { op := s op, cl := [s cl], lab := .lcomment, lines := true }
/-- The same with a closing delimiter that does not make a line a comment line. -/
def block' (op cl : String) : Construct := { block op cl with clMark := false }
/-- Text between delimiters, which may span lines and counts as code. -/
def raw (op cl : String) : Construct := { op := s op, cl := [s cl], lab := .lcode, lines := true }
/-- A block comment whose text counts as code: only the opening delimiter is comment. -/
def blockCode (op cl : String) : Construct := { op := s op, cl := [s cl], lab := .lcode, lines := true, opLab := some .lcomment }
/-- Must not occur. -/
def never (op : String) : Construct := { op := s op, cl := [], lab := .lcode, forbid := true }
/-- A string that must be closed on its line, with backslash escapes. -/
def str (q : String) : Construct := { op := s q, cl := [s q], lab := .lcode, soft := true, esc := true }
/-- The same without escapes. -/
def strRaw (q : String) : Construct := { op := s q, cl := [s q], lab := .lcode, soft := true }
/-- A string with backslash escapes that may be continued by a backslash at the end of the line. -/
def strCont (q : String) : Construct :=
  { op := s q, cl := [s q], lab := .lcode, esc := true, escNl := true, clMark := false }
/-- A string with backslash escapes that may span lines; the closing delimiter alone does not make a line a code line. -/
def strLines (q : String) : Construct := { op := s q, cl := [s q], lab := .lcode, lines := true, esc := true, clMark := false }
/-- The same with a closing delimiter that makes a line a code line. -/
def strLines' (q : String) : Construct := { strLines q with clMark := true }
/-- The word in upper and lower case letters. -/
def cases : List Char → List String
  | [] => [""]
  | c :: l => (cases l).flatMap fun t => if c.isAlpha then [String.ofList (c :: t.toList), String.ofList (c.toUpper :: t.toList)]
      else [String.ofList (c :: t.toList)]

/-- ada.rl -/
def ada_line : Lexis := [toEol "--", strRaw "\""]
/-- ampl.rl -/
def ampl_line : Lexis := [toEol "#", block "/*" "*/"]
/-- assembler.rl -/
def asm_line : Lexis := [toEol "//", toEol ";", toEol "!", block "/*" "*/", str "\""]
/-- automake.rl -/
def am_line : Lexis := [toEol "#", str "'", str "\""]
/-- awk.rl -/
def awk_line : Lexis := [toEol "#", str "\"", str "/"]
/-- bat.rl -/
def bat_line : Lexis := (cases "rem".toList ++ cases "@rem".toList).map toEol ++ [toEol "::"]
/-- c.rl -/
def c_line : Lexis := [toEolCont "//", block "/*" "*/", strCont "'", strCont "\""]
/-- c.rl, without line ends inside of strings and character constants -/
def c_line_strict : Lexis := [toEolCont "//", block "/*" "*/", { str "'" with soft := false }, { str "\"" with soft := false }]
/-- clearsilver.rl -/
def cs_line : Lexis := [toEol "#", str "\""]
/-- cmake.rl -/
def cmake_line : Lexis := [toEol "#", strLines' "\""]
/-- css.rl -/
def css_line : Lexis := [block "/*" "*/", strLines "'", strLines "\""]
/-- dart.rl -/
def dart_line : Lexis := [toEolCont "//", block "/*" "*/"]
/-- dylan.rl -/
def dylan_line : Lexis := [toEol "//", block "/*" "*/", { str "'" with one := true }, str "\""]
/-- ebuild.rl -/
def ebuild_line : Lexis := [toEol "#", str "'", str "\""]
/-- eiffel.rl -/
def eiffel_line : Lexis := [toEol "--", strRaw "\""]
/-- erlang.rl -/
def erlang_line : Lexis := [toEol "%%", str "'", str "\""]
/-- exheres.rl -/
def exheres_line : Lexis := [toEol "#", str "'", str "\""]
/-- factor.rl -/
def factor_line : Lexis := [toEol "!", strLines "\""]
/-- forth.rl -/
def forth_line : Lexis := [toEol "\\", block' "(" ")", strRaw "\""]
/-- fortranfixed.rl -/
def ffixed_line : Lexis := [toEol "C", { strRaw "'" with last := true }, { strRaw "\"" with last := true }]
/-- fortranfree.rl -/
def ffree_line : Lexis := [toEol "!", { strLines "'" with esc := false }, { strLines "\"" with esc := false }]
/-- fsharp.rl -/
def fsharp_line : Lexis := [toEolCont "//", block "(*" "*)", strCont "'", strCont "\""]
/-- glsl.rl -/
def glsl_line : Lexis := c_line
/-- golang.rl -/
def golang_line : Lexis := c_line
/-- grace.rl -/
def grace_line : Lexis := [toEol "//", { strLines "\"" with esc := false, avoid := [s "\\"] }]
/-- groovy.rl -/
def groovy_line : Lexis := c_line
/-- haxe.rl -/
def hx_line : Lexis := [toEolCont "//", block "/*" "*/", str "'", str "\""]
/-- idl_pvwave.rl -/
def idl_pvwave_line : Lexis := [toEol ";"]
/-- jam.rl -/
def jam_line : Lexis := [toEol "#", strLines "'", strLines "\""]
/-- java.rl -/
def java_line : Lexis := [toEol "//", block "/*" "*/", str "'", str "\""]
/-- livecode.rl -/
def livecode_line : Lexis := [toEol "--", toEol "#", toEol "//", block "/*" "*/", str "\""]
/-- logtalk.rl -/
def logtalk_line : Lexis := [toEol "%", block "/*" "*/", str "'", str "\""]
/-- makefile.rl -/
def make_line : Lexis := [toEol "#", str "'", str "\""]
/-- metafont.rl -/
def metafont_line : Lexis := [toEol "%", str "\""]
/-- metapost.rl -/
def metapost_line : Lexis := [toEol "%", str "\""]
/-- objective_c.rl -/
def objc_line : Lexis := hx_line
/-- objective_j.rl -/
def objj_line : Lexis := hx_line
/-- pascal.rl -/
def pascal_line : Lexis := [toEol "//", blockCode "(*" "*)", block' "{" "}", strLines "'"]
/-- php.rl -/
def php_line : Lexis := [toEol "//", toEol "#", block "/*" "*/", { strLines' "'" with wsMark := true }, { strLines' "\"" with wsMark := true }]
/-- pike.rl -/
def pike_line : Lexis := java_line
/-- postscript.rl -/
def postscript_line : Lexis := [toEol "%", { op := s "(", cl := [s ")"], lab := .lcode, soft := true, last := true }]
/-- powershell.rl -/
def powershell_line : Lexis := [toEol "#", block "<#" "#>", { strLines "'" with escNl := true }, { strLines "\"" with escNl := true }]
/-- prolog.rl -/
def prolog_line : Lexis := logtalk_line
/-- puppet.rl -/
def puppet_line : Lexis := [toEol "#", blockCode "/*" "*/", strLines "'"]
/-- r.rl -/
def r_line : Lexis := [toEol "#", str "'", str "\""]
/-- rust.rl -/
def rust_line : Lexis := [toEolCont "//", block "/*" "*/", strCont "\""]
/-- scala.rl -/
def scala_line : Lexis := java_line
/-- scilab.rl -/
def scilab_line : Lexis := [toEol "//", str "'", str "\""]
/-- shell.rl -/
def shell_line : Lexis := [toEol "#", { strLines "'" with escNl := true }, { strLines "\"" with escNl := true }]
/-- smalltalk.rl -/
def smalltalk_line : Lexis := [{ block' "\"" "\"" with clMark := false }, strRaw "'"]
/-- sql.rl -/
def sql_line : Lexis := [toEol "--", toEol "#", toEol "//", block "/*" "*/", block' "{" "}", str "'", str "\""]
/-- structured_basic.rl -/
def sb_line : Lexis := [toEol "'"] ++ (cases "rem".toList).map toEol ++ [str "\""]
/-- swift.rl -/
def swift_line : Lexis := dart_line
/-- tcl.rl -/
def tcl_line : Lexis := [toEolCont "#", strCont "\""]
/-- tex.rl -/
def tex_line : Lexis := [toEol "%"]
/-- tex_dtx.rl -/
def tex_dtx_line : Lexis := [toEol "%%"]
/-- umple.rl -/
def umple_line : Lexis := java_line
/-- unrealscript.rl -/
def unrealscript_line : Lexis := [toEol "//", block "/*" "*/", strCont "'", strCont "\""]
/-- vhdl.rl -/
def vhdl_line : Lexis := [toEol "--", { strRaw "'" with one := true }, strRaw "\""]
/-- visual_basic.rl -/
def vb_line : Lexis := sb_line

end LexisTable
end Ohcount.Ragel
