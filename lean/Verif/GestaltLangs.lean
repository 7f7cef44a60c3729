/-
Generated by tools/gen_gestalt.py from src/hash/languages.gperf and src/languages.h.  Do not edit.
-/

namespace Ohcount.Gestalt

/-- The keys and categories of src/hash/languages.gperf. -/
def categories : List (String × Nat) := [("actionscript", 0), ("ada", 0), ("ampl", 0), ("assembler", 0), ("augeas", 0), ("autoconf", 2), ("automake", 2), ("awk", 0), ("bat", 0), ("bash", 0), ("blitzmax", 0), ("boo", 0), ("brainfuck", 0), ("bfpp", 0), ("c", 0), ("chaiscript", 0), ("classic_basic", 0), ("clearsilver", 0), ("clearsilver_template", 0), ("clojure", 0), ("cmake", 2), ("coffescript", 0), ("coq", 0), ("cpp", 0), ("crystal", 0), ("cs_aspx", 0), ("csharp", 0), ("css", 1), ("cuda", 0), ("dart", 0), ("dcl", 0), ("dmd", 0), ("dtx", 1), ("dylan", 0), ("ebuild", 0), ("ec", 0), ("eiffel", 0), ("elm", 0), ("emacslisp", 0), ("erlang", 0), ("exheres", 0), ("factor", 0), ("forth", 0), ("fortranfixed", 0), ("fortranfree", 0), ("fsharp", 0), ("genie", 0), ("glsl", 0), ("golang", 0), ("grace", 0), ("groovy", 0), ("haml", 1), ("haskell", 0), ("haxe", 0), ("html", 1), ("idl_pvwave", 0), ("jam", 2), ("java", 0), ("javascript", 0), ("julia", 0), ("jsp", 0), ("kotlin", 0), ("limbo", 0), ("lisp", 0), ("livecode", 0), ("logtalk", 0), ("lua", 0), ("make", 2), ("mathematica", 0), ("matlab", 0), ("metafont", 1), ("metapost", 1), ("metapost_with_tex", 0), ("modelica", 0), ("modula2", 0), ("modula3", 0), ("mxml", 1), ("nix", 0), ("nsis", 0), ("oberon", 0), ("objective_c", 0), ("objective_j", 0), ("ocaml", 0), ("octave", 0), ("pascal", 0), ("perl", 0), ("php", 0), ("pike", 0), ("postscript", 1), ("powershell", 0), ("prolog", 0), ("puppet", 0), ("python", 0), ("qml", 1), ("r", 0), ("racket", 0), ("rebol", 0), ("rexx", 0), ("rhtml", 0), ("ruby", 0), ("rust", 0), ("scala", 0), ("scheme", 0), ("scilab", 0), ("shell", 0), ("smalltalk", 0), ("stratego", 0), ("structured_basic", 0), ("sql", 0), ("swift", 0), ("tcl", 0), ("tex", 1), ("umple", 0), ("unrealscript", 0), ("typescript", 0), ("vala", 0), ("vb_aspx", 0), ("vhdl", 0), ("vim", 0), ("visualbasic", 0), ("xaml", 1), ("xml", 1), ("xslt", 0), ("xmlschema", 1)]

/-- The names of languages, src/languages.h:9-131. -/
def langNames : List String := ["actionscript", "ada", "ampl", "assembler", "augeas", "autoconf", "automake", "awk", "brainfuck", "bfpp", "bat", "blitzmax", "boo", "c", "chaiscript", "classic_basic", "clearsilver", "clearsilver_template", "clojure", "cmake", "coffeescript", "coq", "cpp", "crystal", "cs_aspx", "csharp", "css", "cuda", "dart", "dcl", "dmd", "dylan", "ebuild", "ec", "eiffel", "elm", "erlang", "exheres", "emacslisp", "factor", "forth", "fortranfixed", "fortranfree", "fsharp", "genie", "glsl", "golang", "grace", "groovy", "haskell", "haml", "haxe", "html", "idl_pvwave", "jam", "java", "javascript", "julia", "jsp", "kotlin", "limbo", "lisp", "livecode", "logtalk", "lua", "make", "mathematica", "matlab", "metafont", "metapost", "metapost_with_tex", "modelica", "modula2", "modula3", "mxml", "nix", "nsis", "oberon", "objective_c", "objective_j", "ocaml", "octave", "pascal", "perl", "php", "pike", "postscript", "powershell", "prolog", "puppet", "python", "qml", "r", "racket", "rebol", "rexx", "rhtml", "ruby", "rust", "scala", "scheme", "scilab", "shell", "smalltalk", "stratego", "structured_basic", "sql", "swift", "tcl", "tex", "tex_dtx", "umple", "unrealscript", "typescript", "vala", "vb_aspx", "vhdl", "vim", "visualbasic", "xaml", "xml", "xslt", "xmlschema"]

end Ohcount.Gestalt
