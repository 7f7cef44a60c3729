import Verif.Gram.Common

/-! Scanners transcribed from src/parsers/: makefile.rl, mathematica.rl, matlab.rl, metafont.rl, metapost.rl, modelica.rl, modula2.rl, modula3.rl, nsis.rl. Generated by tools/gen_grammars.py. -/

namespace Ohcount.Gram.Makefile
open Ohcount.Ragel

/-- src/parsers/makefile.rl:47
```
  make_comment = '#' @comment nonnewline*;
``` -/
def make_comment : Rx := .seqs [.fin (.cls (Cls.chr 35)) .comment, .star (.cls (Common.nonnewline))]

/-- src/parsers/makefile.rl:49
```
  make_sq_str = '\'' @code ([^\r\n\f'\\] | '\\' nonnewline)* '\'';
``` -/
def make_sq_str : Rx := .seqs [.fin (.cls (Cls.chr 39)) .code, .star (.alts [.cls (Cls.neg (Cls.ranges [(10, 10), (12, 13), (39, 39), (92, 92)])), .seqs [.cls (Cls.chr 92), .cls (Common.nonnewline)]]), .cls (Cls.chr 39)]

/-- src/parsers/makefile.rl:50
```
  make_dq_str = '"' @code ([^\r\n\f"\\] | '\\' nonnewline)* '"';
``` -/
def make_dq_str : Rx := .seqs [.fin (.cls (Cls.chr 34)) .code, .star (.alts [.cls (Cls.neg (Cls.ranges [(10, 10), (12, 13), (34, 34), (92, 92)])), .seqs [.cls (Cls.chr 92), .cls (Common.nonnewline)]]), .cls (Cls.chr 34)]

/-- src/parsers/makefile.rl:51
```
  make_string = make_sq_str | make_dq_str;
``` -/
def make_string : Rx := .alts [make_sq_str, make_dq_str]

/-- src/parsers/makefile.rl:53-59 with the cases of its callback (src/parsers/makefile.rl:31-45).
```
  make_line := |*
    spaces        ${ entity = MAKE_SPACE; } => make_ccallback;
    make_comment;
    make_string;
    newline       ${ entity = NEWLINE;    } => make_ccallback;
    ^space        ${ entity = MAKE_ANY;   } => make_ccallback;
  *|;
``` -/
def make_line : Scanner where
  pats := [
  (.all (Common.spaces) (.setEnt (.own 0)), .cb),
  (make_comment, .none),
  (make_string, .none),
  (.all (Common.newline) (.setEnt .newline), .cb),
  (.all (.cls (Cls.neg (Common.space))) (.setEnt (.own 3)), .cb)]
  sw := [((.own 0), .ls), ((.own 3), .code), (.internalNl, .internalNewline), (.newline, .newline)]

/-- src/parsers/makefile.rl:67
```
  make_comment_entity = '#' nonnewline*;
``` -/
def make_comment_entity : Rx := .seqs [.cls (Cls.chr 35), .star (.cls (Common.nonnewline))]

/-- src/parsers/makefile.rl:69-74.
```
  make_entity := |*
    space+              ${ entity = MAKE_SPACE;   } => make_ecallback;
    make_comment_entity ${ entity = MAKE_COMMENT; } => make_ecallback;
    # TODO:
    ^space;
  *|;
``` -/
def make_entity : Scanner where
  pats := [
  (.all (.plus (.cls (Common.space))) (.setEnt (.own 0)), .ecb),
  (.all (make_comment_entity) (.setEnt (.own 1)), .ecb),
  (.cls (Cls.neg (Common.space)), .none)]
  sw := []

end Ohcount.Gram.Makefile

namespace Ohcount.Gram.Mathematica
open Ohcount.Ragel

/-- src/parsers/mathematica.rl:51-62
```
  mathematica_nested_block_comment =
    '(*' >mathematica_comment_nc_res @comment (
      newline %{ entity = INTERNAL_NL; } %mathematica_ccallback
      |
      ws
      |
      '(*' @mathematica_comment_nc_inc @comment
      |
      '*)' @mathematica_comment_nc_dec @comment
      |
      (nonnewline - ws) @comment
    )* :>> ('*)' when { nest_count == 0 }) @comment;
``` -/
def mathematica_nested_block_comment : Rx := .guard (.seqs [.fin (.ent (.lit [40, 42]) .nestRes) .comment, .star (.alts [.leave (.leave (Common.newline) (.setEnt .internalNl)) .cb, .cls (Common.ws), .fin (.fin (.lit [40, 42]) .nestInc) .comment, .fin (.fin (.lit [42, 41]) .nestDec) .comment, .fin (.cls (Cls.diff (Common.nonnewline) (Common.ws))) .comment])]) (.fin (.cond (.lit [42, 41]) .nestZero) .comment)

/-- src/parsers/mathematica.rl:64
```
  mathematica_comment = mathematica_nested_block_comment;
``` -/
def mathematica_comment : Rx := mathematica_nested_block_comment

/-- src/parsers/mathematica.rl:66
```
  mathematica_string = '"' @code ([^"]) '"';
``` -/
def mathematica_string : Rx := .seqs [.fin (.cls (Cls.chr 34)) .code, .cls (Cls.neg (Cls.chr 34)), .cls (Cls.chr 34)]

/-- src/parsers/mathematica.rl:68-74 with the cases of its callback (src/parsers/mathematica.rl:31-45).
```
  mathematica_line := |*
    spaces               ${ entity = MATHEMATICA_SPACE; } => mathematica_ccallback;
    mathematica_comment;
    mathematica_string;
    newline              ${ entity = NEWLINE;      } => mathematica_ccallback;
    ^space               ${ entity = MATHEMATICA_ANY;   } => mathematica_ccallback;
  *|;
``` -/
def mathematica_line : Scanner where
  pats := [
  (.all (Common.spaces) (.setEnt (.own 0)), .cb),
  (mathematica_comment, .none),
  (mathematica_string, .none),
  (.all (Common.newline) (.setEnt .newline), .cb),
  (.all (.cls (Cls.neg (Common.space))) (.setEnt (.own 3)), .cb)]
  sw := [((.own 0), .ls), ((.own 3), .code), (.internalNl, .internalNewline), (.newline, .newline)]

/-- src/parsers/mathematica.rl:83-89
```
  mathematica_comment_entity = '(*' >mathematica_comment_nc_res (
    '(*' @mathematica_comment_nc_inc
    |
    '*)' @mathematica_comment_nc_dec
    |
    any
  )* :>> ('*)' when { nest_count == 0 });
``` -/
def mathematica_comment_entity : Rx := .guard (.seqs [.ent (.lit [40, 42]) .nestRes, .star (.alts [.fin (.lit [40, 42]) .nestInc, .fin (.lit [42, 41]) .nestDec, .cls (Cls.any)])]) (.cond (.lit [42, 41]) .nestZero)

/-- src/parsers/mathematica.rl:91-96.
```
  mathematica_entity := |*
    space+                     ${ entity = MATHEMATICA_SPACE;   } => mathematica_ecallback;
    mathematica_comment_entity ${ entity = MATHEMATICA_COMMENT; } => mathematica_ecallback;
    # TODO:
    ^space;
  *|;
``` -/
def mathematica_entity : Scanner where
  pats := [
  (.all (.plus (.cls (Common.space))) (.setEnt (.own 0)), .ecb),
  (.all (mathematica_comment_entity) (.setEnt (.own 1)), .ecb),
  (.cls (Cls.neg (Common.space)), .none)]
  sw := []

end Ohcount.Gram.Mathematica

namespace Ohcount.Gram.Matlab
open Ohcount.Ragel

/-- src/parsers/matlab.rl:48
```
  matlab_line_comment = (('%' | '...') [^{] @{ fhold; }) @comment nonnewline*;
``` -/
def matlab_line_comment : Rx := .seqs [.fin (.seqs [.alts [.cls (Cls.chr 37), .lit [46, 46, 46]], .fin (.cls (Cls.neg (Cls.chr 123))) (.fhold 0)]) .comment, .star (.cls (Common.nonnewline))]

/-- src/parsers/matlab.rl:49-56
```
  matlab_block_comment =
    '%{' @comment (
      newline %{ entity = INTERNAL_NL; } %matlab_ccallback
      |
      ws
      |
      (nonnewline - ws) @code
    )* :>> '%}';
``` -/
def matlab_block_comment : Rx := .guard (.seqs [.fin (.lit [37, 123]) .comment, .star (.alts [.leave (.leave (Common.newline) (.setEnt .internalNl)) .cb, .cls (Common.ws), .fin (.cls (Cls.diff (Common.nonnewline) (Common.ws))) .code])]) (.lit [37, 125])

/-- src/parsers/matlab.rl:57
```
  matlab_comment = matlab_line_comment | matlab_block_comment;
``` -/
def matlab_comment : Rx := .alts [matlab_line_comment, matlab_block_comment]

/-- src/parsers/matlab.rl:61
```
  matlab_sq_str = '\'' @code ([^\r\n\f'\\] | '\\' nonnewline)* '\'';
``` -/
def matlab_sq_str : Rx := .seqs [.fin (.cls (Cls.chr 39)) .code, .star (.alts [.cls (Cls.neg (Cls.ranges [(10, 10), (12, 13), (39, 39), (92, 92)])), .seqs [.cls (Cls.chr 92), .cls (Common.nonnewline)]]), .cls (Cls.chr 39)]

/-- src/parsers/matlab.rl:62
```
  matlab_dq_str = '"' @code ([^\r\n\f"\\] | '\\' nonnewline)* '"';
``` -/
def matlab_dq_str : Rx := .seqs [.fin (.cls (Cls.chr 34)) .code, .star (.alts [.cls (Cls.neg (Cls.ranges [(10, 10), (12, 13), (34, 34), (92, 92)])), .seqs [.cls (Cls.chr 92), .cls (Common.nonnewline)]]), .cls (Cls.chr 34)]

/-- src/parsers/matlab.rl:63
```
  matlab_string = matlab_sq_str | matlab_dq_str;
``` -/
def matlab_string : Rx := .alts [matlab_sq_str, matlab_dq_str]

/-- src/parsers/matlab.rl:65-71 with the cases of its callback (src/parsers/matlab.rl:31-45).
```
  matlab_line := |*
    spaces          ${ entity = MATLAB_SPACE; } => matlab_ccallback;
    matlab_comment;
    matlab_string;
    newline         ${ entity = NEWLINE;      } => matlab_ccallback;
    ^space          ${ entity = MATLAB_ANY;   } => matlab_ccallback;
  *|;
``` -/
def matlab_line : Scanner where
  pats := [
  (.all (Common.spaces) (.setEnt (.own 0)), .cb),
  (matlab_comment, .none),
  (matlab_string, .none),
  (.all (Common.newline) (.setEnt .newline), .cb),
  (.all (.cls (Cls.neg (Common.space))) (.setEnt (.own 3)), .cb)]
  sw := [((.own 0), .ls), ((.own 3), .code), (.internalNl, .internalNewline), (.newline, .newline)]

/-- src/parsers/matlab.rl:80
```
  matlab_line_comment_entity = (('%' | '...') [^{] @{ fhold; }) nonnewline*;
``` -/
def matlab_line_comment_entity : Rx := .seqs [.seqs [.alts [.cls (Cls.chr 37), .lit [46, 46, 46]], .fin (.cls (Cls.neg (Cls.chr 123))) (.fhold 1)], .star (.cls (Common.nonnewline))]

/-- src/parsers/matlab.rl:81
```
  matlab_block_comment_entity = '%{' any* :>> '%}';
``` -/
def matlab_block_comment_entity : Rx := .guard (.seqs [.lit [37, 123], .star (.cls (Cls.any))]) (.lit [37, 125])

/-- src/parsers/matlab.rl:82-83
```
  matlab_comment_entity =
    matlab_line_comment_entity | matlab_block_comment_entity;
``` -/
def matlab_comment_entity : Rx := .alts [matlab_line_comment_entity, matlab_block_comment_entity]

/-- src/parsers/matlab.rl:85-90.
```
  matlab_entity := |*
    space+                ${ entity = MATLAB_SPACE;   } => matlab_ecallback;
    matlab_comment_entity ${ entity = MATLAB_COMMENT; } => matlab_ecallback;
    # TODO:
    ^space;
  *|;
``` -/
def matlab_entity : Scanner where
  pats := [
  (.all (.plus (.cls (Common.space))) (.setEnt (.own 0)), .ecb),
  (.all (matlab_comment_entity) (.setEnt (.own 1)), .ecb),
  (.cls (Cls.neg (Common.space)), .none)]
  sw := []

end Ohcount.Gram.Matlab

namespace Ohcount.Gram.Metafont
open Ohcount.Ragel

/-- src/parsers/metafont.rl:47
```
  metafont_comment = '%' @{ fhold; } @comment nonnewline*;
``` -/
def metafont_comment : Rx := .seqs [.fin (.fin (.cls (Cls.chr 37)) (.fhold 0)) .comment, .star (.cls (Common.nonnewline))]

/-- src/parsers/metafont.rl:49
```
  metafont_string = '"' @code ([^\r\n\f"\\] | '\\' nonnewline)* '"';
``` -/
def metafont_string : Rx := .seqs [.fin (.cls (Cls.chr 34)) .code, .star (.alts [.cls (Cls.neg (Cls.ranges [(10, 10), (12, 13), (34, 34), (92, 92)])), .seqs [.cls (Cls.chr 92), .cls (Common.nonnewline)]]), .cls (Cls.chr 34)]

/-- src/parsers/metafont.rl:51-57 with the cases of its callback (src/parsers/metafont.rl:31-45).
```
  metafont_line := |*
    spaces            ${ entity = METAFONT_SPACE; } => metafont_ccallback;
    metafont_comment;
    metafont_string;
    newline           ${ entity = NEWLINE;        } => metafont_ccallback;
    ^space            ${ entity = METAFONT_ANY;   } => metafont_ccallback;
  *|;
``` -/
def metafont_line : Scanner where
  pats := [
  (.all (Common.spaces) (.setEnt (.own 0)), .cb),
  (metafont_comment, .none),
  (metafont_string, .none),
  (.all (Common.newline) (.setEnt .newline), .cb),
  (.all (.cls (Cls.neg (Common.space))) (.setEnt (.own 3)), .cb)]
  sw := [((.own 0), .ls), ((.own 3), .code), (.internalNl, .internalNewline), (.newline, .newline)]

/-- src/parsers/metafont.rl:66
```
  metafont_comment_entity = '%' nonnewline*;
``` -/
def metafont_comment_entity : Rx := .seqs [.cls (Cls.chr 37), .star (.cls (Common.nonnewline))]

/-- src/parsers/metafont.rl:68-73.
```
  metafont_entity := |*
    space+                  ${ entity = METAFONT_SPACE;   } => metafont_ecallback;
    metafont_comment_entity ${ entity = METAFONT_COMMENT; } => metafont_ecallback;
    # TODO:
    ^space;
  *|;
``` -/
def metafont_entity : Scanner where
  pats := [
  (.all (.plus (.cls (Common.space))) (.setEnt (.own 0)), .ecb),
  (.all (metafont_comment_entity) (.setEnt (.own 1)), .ecb),
  (.cls (Cls.neg (Common.space)), .none)]
  sw := []

end Ohcount.Gram.Metafont

namespace Ohcount.Gram.Metapost
open Ohcount.Ragel

/-- src/parsers/metapost.rl:47
```
  metapost_comment = '%' @{ fhold; } @comment nonnewline*;
``` -/
def metapost_comment : Rx := .seqs [.fin (.fin (.cls (Cls.chr 37)) (.fhold 0)) .comment, .star (.cls (Common.nonnewline))]

/-- src/parsers/metapost.rl:49
```
  metapost_string = '"' @code ([^\r\n\f"\\] | '\\' nonnewline)* '"';
``` -/
def metapost_string : Rx := .seqs [.fin (.cls (Cls.chr 34)) .code, .star (.alts [.cls (Cls.neg (Cls.ranges [(10, 10), (12, 13), (34, 34), (92, 92)])), .seqs [.cls (Cls.chr 92), .cls (Common.nonnewline)]]), .cls (Cls.chr 34)]

/-- src/parsers/metapost.rl:51-57 with the cases of its callback (src/parsers/metapost.rl:31-45).
```
  metapost_line := |*
    spaces            ${ entity = METAPOST_SPACE; } => metapost_ccallback;
    metapost_comment;
    metapost_string;
    newline           ${ entity = NEWLINE;        } => metapost_ccallback;
    ^space            ${ entity = METAPOST_ANY;   } => metapost_ccallback;
  *|;
``` -/
def metapost_line : Scanner where
  pats := [
  (.all (Common.spaces) (.setEnt (.own 0)), .cb),
  (metapost_comment, .none),
  (metapost_string, .none),
  (.all (Common.newline) (.setEnt .newline), .cb),
  (.all (.cls (Cls.neg (Common.space))) (.setEnt (.own 3)), .cb)]
  sw := [((.own 0), .ls), ((.own 3), .code), (.internalNl, .internalNewline), (.newline, .newline)]

/-- src/parsers/metapost.rl:66
```
  metapost_comment_entity = '%' nonnewline*;
``` -/
def metapost_comment_entity : Rx := .seqs [.cls (Cls.chr 37), .star (.cls (Common.nonnewline))]

/-- src/parsers/metapost.rl:68-73.
```
  metapost_entity := |*
    space+                  ${ entity = METAPOST_SPACE;   } => metapost_ecallback;
    metapost_comment_entity ${ entity = METAPOST_COMMENT; } => metapost_ecallback;
    # TODO:
    ^space;
  *|;
``` -/
def metapost_entity : Scanner where
  pats := [
  (.all (.plus (.cls (Common.space))) (.setEnt (.own 0)), .ecb),
  (.all (metapost_comment_entity) (.setEnt (.own 1)), .ecb),
  (.cls (Cls.neg (Common.space)), .none)]
  sw := []

end Ohcount.Gram.Metapost

namespace Ohcount.Gram.Modelica
open Ohcount.Ragel

/-- src/parsers/modelica.rl:47
```
  modelica_line_comment = '//' @comment nonnewline*;
``` -/
def modelica_line_comment : Rx := .seqs [.fin (.lit [47, 47]) .comment, .star (.cls (Common.nonnewline))]

/-- src/parsers/modelica.rl:49-56
```
  modelica_block_comment =
    '/*' @comment (
      newline %{ entity = INTERNAL_NL; } %modelica_ccallback
      |
      ws
      |
      (nonnewline - ws) @comment
    )* :>> '*/';
``` -/
def modelica_block_comment : Rx := .guard (.seqs [.fin (.lit [47, 42]) .comment, .star (.alts [.leave (.leave (Common.newline) (.setEnt .internalNl)) .cb, .cls (Common.ws), .fin (.cls (Cls.diff (Common.nonnewline) (Common.ws))) .comment])]) (.lit [42, 47])

/-- src/parsers/modelica.rl:58
```
  modelica_comment = modelica_line_comment | modelica_block_comment;
``` -/
def modelica_comment : Rx := .alts [modelica_line_comment, modelica_block_comment]

/-- src/parsers/modelica.rl:59
```
  identifier = (alpha | '_') (alnum | '_')*;
``` -/
def identifier : Rx := .seqs [.cls (Cls.union (Common.alpha) (Cls.chr 95)), .star (.cls (Cls.union (Common.alnum) (Cls.chr 95)))]

/-- src/parsers/modelica.rl:60-65
```
  string = '\"' @code
    (newline %{ entity = INTERNAL_NL; } %modelica_ccallback
    |ws
    |[^ \t\n"\\] @code
    |'\\\"' @code
    )* '\"' @code;
``` -/
def string : Rx := .seqs [.fin (.cls (Cls.chr 34)) .code, .star (.alts [.leave (.leave (Common.newline) (.setEnt .internalNl)) .cb, .cls (Common.ws), .fin (.cls (Cls.neg (Cls.ranges [(9, 10), (32, 32), (34, 34), (92, 92)]))) .code, .fin (.lit [92, 34]) .code]), .fin (.cls (Cls.chr 34)) .code]

/-- src/parsers/modelica.rl:67-74 with the cases of its callback (src/parsers/modelica.rl:31-45).
```
  modelica_line := |*
    spaces       ${ entity = MODELICA_SPACE; } => modelica_ccallback;
    modelica_comment;
    newline      ${ entity = NEWLINE;   } => modelica_ccallback;
    identifier   ${ entity = MODELICA_ANY; } => modelica_ccallback;
    string       ${ entity = MODELICA_ANY; } => modelica_ccallback;
    ^space       ${ entity = MODELICA_ANY;   } => modelica_ccallback;
  *|;
``` -/
def modelica_line : Scanner where
  pats := [
  (.all (Common.spaces) (.setEnt (.own 0)), .cb),
  (modelica_comment, .none),
  (.all (Common.newline) (.setEnt .newline), .cb),
  (.all (identifier) (.setEnt (.own 3)), .cb),
  (.all (string) (.setEnt (.own 3)), .cb),
  (.all (.cls (Cls.neg (Common.space))) (.setEnt (.own 3)), .cb)]
  sw := [((.own 0), .ls), ((.own 3), .code), (.internalNl, .internalNewline), (.newline, .newline)]

/-- src/parsers/modelica.rl:93
```
  modelica_ecomment = modelica_line_comment | modelica_block_comment;
``` -/
def modelica_ecomment : Rx := .alts [modelica_line_comment, modelica_block_comment]

/-- src/parsers/modelica.rl:95-101.
```
  modelica_entity := |*
    space+             ${ entity = MODELICA_SPACE;   } => modelica_ecallback;
    modelica_ecomment ${ entity = MODELICA_COMMENT; } => modelica_ecallback;
    identifier   ${ entity = MODELICA_ANY; } => modelica_ecallback;
    string       ${ entity = MODELICA_ANY; } => modelica_ecallback;
    ^space;
  *|;
``` -/
def modelica_entity : Scanner where
  pats := [
  (.all (.plus (.cls (Common.space))) (.setEnt (.own 0)), .ecb),
  (.all (modelica_ecomment) (.setEnt (.own 1)), .ecb),
  (.all (identifier) (.setEnt (.own 3)), .ecb),
  (.all (string) (.setEnt (.own 3)), .ecb),
  (.cls (Cls.neg (Common.space)), .none)]
  sw := []

end Ohcount.Gram.Modelica

namespace Ohcount.Gram.Modula2
open Ohcount.Ragel

/-- src/parsers/modula2.rl:56-67
```
  modula2_comment =
    '(*' >modula2_comment_nc_res @comment (
      newline %{ entity = INTERNAL_NL; } %modula2_ccallback
      |
      ws
      |
      '(*' @modula2_comment_nc_inc @comment
      |
      '*)' @modula2_comment_nc_dec @comment
      |
      ^space @comment
    )* :>> ('*)' when { nest_count == 0 }) @comment;
``` -/
def modula2_comment : Rx := .guard (.seqs [.fin (.ent (.lit [40, 42]) .nestRes) .comment, .star (.alts [.leave (.leave (Common.newline) (.setEnt .internalNl)) .cb, .cls (Common.ws), .fin (.fin (.lit [40, 42]) .nestInc) .comment, .fin (.fin (.lit [42, 41]) .nestDec) .comment, .fin (.cls (Cls.neg (Common.space))) .comment])]) (.fin (.cond (.lit [42, 41]) .nestZero) .comment)

/-- src/parsers/modula2.rl:72
```
  modula2_singlequoted_string = '\'' @code [^\r\n\f"]* '\'';
``` -/
def modula2_singlequoted_string : Rx := .seqs [.fin (.cls (Cls.chr 39)) .code, .star (.cls (Cls.neg (Cls.ranges [(10, 10), (12, 13), (34, 34)]))), .cls (Cls.chr 39)]

/-- src/parsers/modula2.rl:73
```
  modula2_doublequoted_string = '"' @code [^\r\n\f"]* '"';
``` -/
def modula2_doublequoted_string : Rx := .seqs [.fin (.cls (Cls.chr 34)) .code, .star (.cls (Cls.neg (Cls.ranges [(10, 10), (12, 13), (34, 34)]))), .cls (Cls.chr 34)]

/-- src/parsers/modula2.rl:75
```
  modula2_string = modula2_singlequoted_string | modula2_doublequoted_string;
``` -/
def modula2_string : Rx := .alts [modula2_singlequoted_string, modula2_doublequoted_string]

/-- src/parsers/modula2.rl:80-86 with the cases of its callback (src/parsers/modula2.rl:33-47).
```
  modula2_line := |*
    spaces          ${ entity = MODULA2_SPACE; } => modula2_ccallback;
    modula2_comment;
    modula2_string;
    newline         ${ entity = NEWLINE;       } => modula2_ccallback;
    ^space          ${ entity = MODULA2_ANY;   } => modula2_ccallback;
  *|;
``` -/
def modula2_line : Scanner where
  pats := [
  (.all (Common.spaces) (.setEnt (.own 0)), .cb),
  (modula2_comment, .none),
  (modula2_string, .none),
  (.all (Common.newline) (.setEnt .newline), .cb),
  (.all (.cls (Cls.neg (Common.space))) (.setEnt (.own 3)), .cb)]
  sw := [((.own 0), .ls), ((.own 3), .code), (.internalNl, .internalNewline), (.newline, .newline)]

/-- src/parsers/modula2.rl:96-102
```
  modula2_comment_entity = '(*' >modula2_comment_nc_res (
    '(*' @modula2_comment_nc_inc
    |
    '*)' @modula2_comment_nc_dec
    |
    any
  )* :>> ('*)' when { nest_count == 0 });
``` -/
def modula2_comment_entity : Rx := .guard (.seqs [.ent (.lit [40, 42]) .nestRes, .star (.alts [.fin (.lit [40, 42]) .nestInc, .fin (.lit [42, 41]) .nestDec, .cls (Cls.any)])]) (.cond (.lit [42, 41]) .nestZero)

/-- src/parsers/modula2.rl:104
```
  modula2_string_entity = sq_str | dq_str;
``` -/
def modula2_string_entity : Rx := .alts [Common.sq_str, Common.dq_str]

/-- src/parsers/modula2.rl:106-112.
```
  modula2_entity := |*
    space+                 ${ entity = MODULA2_SPACE;   } => modula2_ecallback;
    modula2_comment_entity ${ entity = MODULA2_COMMENT; } => modula2_ecallback;
    modula2_string_entity  ${ entity = MODULA2_STRING;  } => modula2_ecallback;
    # TODO: detecting other entities may be useful to differentiate dialects
    ^space;
  *|;
``` -/
def modula2_entity : Scanner where
  pats := [
  (.all (.plus (.cls (Common.space))) (.setEnt (.own 0)), .ecb),
  (.all (modula2_comment_entity) (.setEnt (.own 1)), .ecb),
  (.all (modula2_string_entity) (.setEnt (.own 2)), .ecb),
  (.cls (Cls.neg (Common.space)), .none)]
  sw := []

end Ohcount.Gram.Modula2

namespace Ohcount.Gram.Modula3
open Ohcount.Ragel

/-- src/parsers/modula3.rl:56-67
```
  modula3_comment =
    '(*' >modula3_comment_nc_res @comment (
      newline %{ entity = INTERNAL_NL; } %modula3_ccallback
      |
      ws
      |
      '(*' @modula3_comment_nc_inc @comment
      |
      '*)' @modula3_comment_nc_dec @comment
      |
      ^space @comment
    )* :>> ('*)' when { nest_count == 0 }) @comment;
``` -/
def modula3_comment : Rx := .guard (.seqs [.fin (.ent (.lit [40, 42]) .nestRes) .comment, .star (.alts [.leave (.leave (Common.newline) (.setEnt .internalNl)) .cb, .cls (Common.ws), .fin (.fin (.lit [40, 42]) .nestInc) .comment, .fin (.fin (.lit [42, 41]) .nestDec) .comment, .fin (.cls (Cls.neg (Common.space))) .comment])]) (.fin (.cond (.lit [42, 41]) .nestZero) .comment)

/-- src/parsers/modula3.rl:72-81
```
  modula3_singlequoted_string =
    '\'' @code (
      escaped_newline %{ entity = INTERNAL_NL; } %modula3_ccallback
      |
      ws
      |
      [^\t '\\] @code
      |
      '\\' nonnewline @code
    )* '\'';
``` -/
def modula3_singlequoted_string : Rx := .seqs [.fin (.cls (Cls.chr 39)) .code, .star (.alts [.leave (.leave (Common.escaped_newline) (.setEnt .internalNl)) .cb, .cls (Common.ws), .fin (.cls (Cls.neg (Cls.chars [9, 32, 39, 92]))) .code, .seqs [.cls (Cls.chr 92), .fin (.cls (Common.nonnewline)) .code]]), .cls (Cls.chr 39)]

/-- src/parsers/modula3.rl:82-91
```
  modula3_doublequoted_string =
    '"' @code (
      escaped_newline %{ entity = INTERNAL_NL; } %modula3_ccallback
      |
      ws
      |
      [^\t "\\] @code
      |
      '\\' nonnewline @code
    )* '"';
``` -/
def modula3_doublequoted_string : Rx := .seqs [.fin (.cls (Cls.chr 34)) .code, .star (.alts [.leave (.leave (Common.escaped_newline) (.setEnt .internalNl)) .cb, .cls (Common.ws), .fin (.cls (Cls.neg (Cls.chars [9, 32, 34, 92]))) .code, .seqs [.cls (Cls.chr 92), .fin (.cls (Common.nonnewline)) .code]]), .cls (Cls.chr 34)]

/-- src/parsers/modula3.rl:92
```
  modula3_string = modula3_singlequoted_string | modula3_doublequoted_string;
``` -/
def modula3_string : Rx := .alts [modula3_singlequoted_string, modula3_doublequoted_string]

/-- src/parsers/modula3.rl:97-103 with the cases of its callback (src/parsers/modula3.rl:33-47).
```
  modula3_line := |*
    spaces          ${ entity = MODULA3_SPACE; } => modula3_ccallback;
    modula3_comment;
    modula3_string;
    newline         ${ entity = NEWLINE;       } => modula3_ccallback;
    ^space          ${ entity = MODULA3_ANY;   } => modula3_ccallback;
  *|;
``` -/
def modula3_line : Scanner where
  pats := [
  (.all (Common.spaces) (.setEnt (.own 0)), .cb),
  (modula3_comment, .none),
  (modula3_string, .none),
  (.all (Common.newline) (.setEnt .newline), .cb),
  (.all (.cls (Cls.neg (Common.space))) (.setEnt (.own 3)), .cb)]
  sw := [((.own 0), .ls), ((.own 3), .code), (.internalNl, .internalNewline), (.newline, .newline)]

/-- src/parsers/modula3.rl:113-119
```
  modula3_comment_entity = '(*' >modula3_comment_nc_res (
    '(*' @modula3_comment_nc_inc
    |
    '*)' @modula3_comment_nc_dec
    |
    any
  )* :>> ('*)' when { nest_count == 0 });
``` -/
def modula3_comment_entity : Rx := .guard (.seqs [.ent (.lit [40, 42]) .nestRes, .star (.alts [.fin (.lit [40, 42]) .nestInc, .fin (.lit [42, 41]) .nestDec, .cls (Cls.any)])]) (.cond (.lit [42, 41]) .nestZero)

/-- src/parsers/modula3.rl:121-122
```
  modula3_string_entity = sq_str_with_escapes |
                          dq_str_with_escapes;
``` -/
def modula3_string_entity : Rx := .alts [Common.sq_str_with_escapes, Common.dq_str_with_escapes]

/-- src/parsers/modula3.rl:124-130.
```
  modula3_entity := |*
    space+                 ${ entity = MODULA3_SPACE;   } => modula3_ecallback;
    modula3_comment_entity ${ entity = MODULA3_COMMENT; } => modula3_ecallback;
    modula3_string_entity  ${ entity = MODULA3_STRING;  } => modula3_ecallback;
    # TODO: detecting other entities may be useful to differentiate dialects
    ^space;
  *|;
``` -/
def modula3_entity : Scanner where
  pats := [
  (.all (.plus (.cls (Common.space))) (.setEnt (.own 0)), .ecb),
  (.all (modula3_comment_entity) (.setEnt (.own 1)), .ecb),
  (.all (modula3_string_entity) (.setEnt (.own 2)), .ecb),
  (.cls (Cls.neg (Common.space)), .none)]
  sw := []

end Ohcount.Gram.Modula3

namespace Ohcount.Gram.Nsis
open Ohcount.Ragel

/-- src/parsers/nsis.rl:47
```
  nsis_line_comment = ('#' | ';') @comment nonnewline*;
``` -/
def nsis_line_comment : Rx := .seqs [.fin (.cls (Cls.union (Cls.chr 35) (Cls.chr 59))) .comment, .star (.cls (Common.nonnewline))]

/-- src/parsers/nsis.rl:48-55
```
  nsis_block_comment =
    '/*' @comment (
      newline %{ entity = INTERNAL_NL; } %nsis_ccallback
      |
      ws
      |
      (nonnewline - ws) @comment
    )* :>> '*/';
``` -/
def nsis_block_comment : Rx := .guard (.seqs [.fin (.lit [47, 42]) .comment, .star (.alts [.leave (.leave (Common.newline) (.setEnt .internalNl)) .cb, .cls (Common.ws), .fin (.cls (Cls.diff (Common.nonnewline) (Common.ws))) .comment])]) (.lit [42, 47])

/-- src/parsers/nsis.rl:56
```
  nsis_comment = nsis_line_comment | nsis_block_comment;
``` -/
def nsis_comment : Rx := .alts [nsis_line_comment, nsis_block_comment]

/-- src/parsers/nsis.rl:58
```
  nsis_bt_str = '`' @code ([^\r\n\f`\\] | '\\' nonnewline)* '`';
``` -/
def nsis_bt_str : Rx := .seqs [.fin (.cls (Cls.chr 96)) .code, .star (.alts [.cls (Cls.neg (Cls.ranges [(10, 10), (12, 13), (92, 92), (96, 96)])), .seqs [.cls (Cls.chr 92), .cls (Common.nonnewline)]]), .cls (Cls.chr 96)]

/-- src/parsers/nsis.rl:59
```
  nsis_sq_str = '\'' @code ([^\r\n\f'\\] | '\\' nonnewline)* '\'';
``` -/
def nsis_sq_str : Rx := .seqs [.fin (.cls (Cls.chr 39)) .code, .star (.alts [.cls (Cls.neg (Cls.ranges [(10, 10), (12, 13), (39, 39), (92, 92)])), .seqs [.cls (Cls.chr 92), .cls (Common.nonnewline)]]), .cls (Cls.chr 39)]

/-- src/parsers/nsis.rl:60
```
  nsis_dq_str = '"' @code ([^\r\n\f"\\] | '\\' nonnewline)* '"';
``` -/
def nsis_dq_str : Rx := .seqs [.fin (.cls (Cls.chr 34)) .code, .star (.alts [.cls (Cls.neg (Cls.ranges [(10, 10), (12, 13), (34, 34), (92, 92)])), .seqs [.cls (Cls.chr 92), .cls (Common.nonnewline)]]), .cls (Cls.chr 34)]

/-- src/parsers/nsis.rl:61
```
  nsis_string = nsis_bt_str | nsis_sq_str | nsis_dq_str;
``` -/
def nsis_string : Rx := .alts [nsis_bt_str, nsis_sq_str, nsis_dq_str]

/-- src/parsers/nsis.rl:63-69 with the cases of its callback (src/parsers/nsis.rl:31-45).
```
  nsis_line := |*
    spaces        ${ entity = NSIS_SPACE; } => nsis_ccallback;
    nsis_comment;
    nsis_string;
    newline       ${ entity = NEWLINE;    } => nsis_ccallback;
    ^space        ${ entity = NSIS_ANY;   } => nsis_ccallback;
  *|;
``` -/
def nsis_line : Scanner where
  pats := [
  (.all (Common.spaces) (.setEnt (.own 0)), .cb),
  (nsis_comment, .none),
  (nsis_string, .none),
  (.all (Common.newline) (.setEnt .newline), .cb),
  (.all (.cls (Cls.neg (Common.space))) (.setEnt (.own 3)), .cb)]
  sw := [((.own 0), .ls), ((.own 3), .code), (.internalNl, .internalNewline), (.newline, .newline)]

/-- src/parsers/nsis.rl:77
```
  nsis_line_comment_entity = ('#' | '//') nonnewline*;
``` -/
def nsis_line_comment_entity : Rx := .seqs [.alts [.cls (Cls.chr 35), .lit [47, 47]], .star (.cls (Common.nonnewline))]

/-- src/parsers/nsis.rl:78
```
  nsis_block_comment_entity = '/*' any* :>> '*/';
``` -/
def nsis_block_comment_entity : Rx := .guard (.seqs [.lit [47, 42], .star (.cls (Cls.any))]) (.lit [42, 47])

/-- src/parsers/nsis.rl:79
```
  nsis_comment_entity = nsis_line_comment_entity | nsis_block_comment_entity;
``` -/
def nsis_comment_entity : Rx := .alts [nsis_line_comment_entity, nsis_block_comment_entity]

/-- src/parsers/nsis.rl:81-86.
```
  nsis_entity := |*
    space+              ${ entity = NSIS_SPACE;   } => nsis_ecallback;
    nsis_comment_entity ${ entity = NSIS_COMMENT; } => nsis_ecallback;
    # TODO:
    ^space;
  *|;
``` -/
def nsis_entity : Scanner where
  pats := [
  (.all (.plus (.cls (Common.space))) (.setEnt (.own 0)), .ecb),
  (.all (nsis_comment_entity) (.setEnt (.own 1)), .ecb),
  (.cls (Cls.neg (Common.space)), .none)]
  sw := []

end Ohcount.Gram.Nsis

