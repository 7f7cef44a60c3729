import Verif.Gram.Common

/-! Scanners transcribed from src/parsers/: oberon.rl, objective_c.rl, objective_j.rl, ocaml.rl, octave.rl, pascal.rl, php.rl, pike.rl, postscript.rl. Generated by tools/gen_grammars.py. -/

namespace Ohcount.Gram.Oberon
open Ohcount.Ragel

/-- src/parsers/oberon.rl:56-67
```
  oberon_comment =
    '(*' >oberon_comment_nc_res @comment (
      newline %{ entity = INTERNAL_NL; } %oberon_ccallback
      |
      ws
      |
      '(*' @oberon_comment_nc_inc @comment
      |
      '*)' @oberon_comment_nc_dec @comment
      |
      ^space @comment
    )* :>> ('*)' when { nest_count == 0 }) @comment;
``` -/
def oberon_comment : Rx := .guard (.seqs [.fin (.ent (.lit [40, 42]) .nestRes) .comment, .star (.alts [.leave (.leave (Common.newline) (.setEnt .internalNl)) .cb, .cls (Common.ws), .fin (.fin (.lit [40, 42]) .nestInc) .comment, .fin (.fin (.lit [42, 41]) .nestDec) .comment, .fin (.cls (Cls.neg (Common.space))) .comment])]) (.fin (.cond (.lit [42, 41]) .nestZero) .comment)

/-- src/parsers/oberon.rl:72
```
  oberon_singlequoted_string = '\'' @code [^\r\n\f"]* '\'';
``` -/
def oberon_singlequoted_string : Rx := .seqs [.fin (.cls (Cls.chr 39)) .code, .star (.cls (Cls.neg (Cls.ranges [(10, 10), (12, 13), (34, 34)]))), .cls (Cls.chr 39)]

/-- src/parsers/oberon.rl:73
```
  oberon_doublequoted_string = '"' @code [^\r\n\f"]* '"';
``` -/
def oberon_doublequoted_string : Rx := .seqs [.fin (.cls (Cls.chr 34)) .code, .star (.cls (Cls.neg (Cls.ranges [(10, 10), (12, 13), (34, 34)]))), .cls (Cls.chr 34)]

/-- src/parsers/oberon.rl:75
```
  oberon_string = oberon_singlequoted_string | oberon_doublequoted_string;
``` -/
def oberon_string : Rx := .alts [oberon_singlequoted_string, oberon_doublequoted_string]

/-- src/parsers/oberon.rl:80-86 with the cases of its callback (src/parsers/oberon.rl:33-47).
```
  oberon_line := |*
    spaces          ${ entity = OBERON_SPACE; } => oberon_ccallback;
    oberon_comment;
    oberon_string;
    newline         ${ entity = NEWLINE;      } => oberon_ccallback;
    ^space          ${ entity = OBERON_ANY;   } => oberon_ccallback;
  *|;
``` -/
def oberon_line : Scanner where
  pats := [
  (.all (Common.spaces) (.setEnt (.own 0)), .cb),
  (oberon_comment, .none),
  (oberon_string, .none),
  (.all (Common.newline) (.setEnt .newline), .cb),
  (.all (.cls (Cls.neg (Common.space))) (.setEnt (.own 3)), .cb)]
  sw := [((.own 0), .ls), ((.own 3), .code), (.internalNl, .internalNewline), (.newline, .newline)]

/-- src/parsers/oberon.rl:96-102
```
  oberon_comment_entity = '(*' >oberon_comment_nc_res (
    '(*' @oberon_comment_nc_inc
    |
    '*)' @oberon_comment_nc_dec
    |
    any
  )* :>> ('*)' when { nest_count == 0 });
``` -/
def oberon_comment_entity : Rx := .guard (.seqs [.ent (.lit [40, 42]) .nestRes, .star (.alts [.fin (.lit [40, 42]) .nestInc, .fin (.lit [42, 41]) .nestDec, .cls (Cls.any)])]) (.cond (.lit [42, 41]) .nestZero)

/-- src/parsers/oberon.rl:104
```
  oberon_string_entity = sq_str | dq_str;
``` -/
def oberon_string_entity : Rx := .alts [Common.sq_str, Common.dq_str]

/-- src/parsers/oberon.rl:106-112.
```
  oberon_entity := |*
    space+                ${ entity = OBERON_SPACE;   } => oberon_ecallback;
    oberon_comment_entity ${ entity = OBERON_COMMENT; } => oberon_ecallback;
    oberon_string_entity  ${ entity = OBERON_STRING;  } => oberon_ecallback;
    # TODO: detecting other entities may be useful to differentiate dialects
    ^space;
  *|;
``` -/
def oberon_entity : Scanner where
  pats := [
  (.all (.plus (.cls (Common.space))) (.setEnt (.own 0)), .ecb),
  (.all (oberon_comment_entity) (.setEnt (.own 1)), .ecb),
  (.all (oberon_string_entity) (.setEnt (.own 2)), .ecb),
  (.cls (Cls.neg (Common.space)), .none)]
  sw := []

end Ohcount.Gram.Oberon

namespace Ohcount.Gram.ObjectiveC
open Ohcount.Ragel

/-- src/parsers/objective_c.rl:47-54
```
  objc_line_comment =
    '//' @comment (
      escaped_newline %{ entity = INTERNAL_NL; } %objc_ccallback
      |
      ws
      |
      (nonnewline - ws) @comment
    )*;
``` -/
def objc_line_comment : Rx := .seqs [.fin (.lit [47, 47]) .comment, .star (.alts [.leave (.leave (Common.escaped_newline) (.setEnt .internalNl)) .cb, .cls (Common.ws), .fin (.cls (Cls.diff (Common.nonnewline) (Common.ws))) .comment])]

/-- src/parsers/objective_c.rl:55-62
```
    objc_block_comment =
    '/*' @comment (
      newline %{ entity = INTERNAL_NL; } %objc_ccallback
      |
      ws
      |
      (nonnewline - ws) @comment
    )* :>> '*/';
``` -/
def objc_block_comment : Rx := .guard (.seqs [.fin (.lit [47, 42]) .comment, .star (.alts [.leave (.leave (Common.newline) (.setEnt .internalNl)) .cb, .cls (Common.ws), .fin (.cls (Cls.diff (Common.nonnewline) (Common.ws))) .comment])]) (.lit [42, 47])

/-- src/parsers/objective_c.rl:63
```
  objc_comment = objc_line_comment | objc_block_comment;
``` -/
def objc_comment : Rx := .alts [objc_line_comment, objc_block_comment]

/-- src/parsers/objective_c.rl:65
```
  objc_sq_str = '\'' @code ([^\r\n\f'\\] | '\\' nonnewline)* '\'';
``` -/
def objc_sq_str : Rx := .seqs [.fin (.cls (Cls.chr 39)) .code, .star (.alts [.cls (Cls.neg (Cls.ranges [(10, 10), (12, 13), (39, 39), (92, 92)])), .seqs [.cls (Cls.chr 92), .cls (Common.nonnewline)]]), .cls (Cls.chr 39)]

/-- src/parsers/objective_c.rl:66
```
  objc_dq_str = '"' @code ([^\r\n\f"\\] | '\\' nonnewline)* '"';
``` -/
def objc_dq_str : Rx := .seqs [.fin (.cls (Cls.chr 34)) .code, .star (.alts [.cls (Cls.neg (Cls.ranges [(10, 10), (12, 13), (34, 34), (92, 92)])), .seqs [.cls (Cls.chr 92), .cls (Common.nonnewline)]]), .cls (Cls.chr 34)]

/-- src/parsers/objective_c.rl:67
```
  objc_string = objc_sq_str | objc_dq_str;
``` -/
def objc_string : Rx := .alts [objc_sq_str, objc_dq_str]

/-- src/parsers/objective_c.rl:69-75 with the cases of its callback (src/parsers/objective_c.rl:31-45).
```
  objc_line := |*
    spaces        ${ entity = OBJC_SPACE; } => objc_ccallback;
    objc_comment;
    objc_string;
    newline       ${ entity = NEWLINE;    } => objc_ccallback;
    ^space        ${ entity = OBJC_ANY;   } => objc_ccallback;
  *|;
``` -/
def objc_line : Scanner where
  pats := [
  (.all (Common.spaces) (.setEnt (.own 0)), .cb),
  (objc_comment, .none),
  (objc_string, .none),
  (.all (Common.newline) (.setEnt .newline), .cb),
  (.all (.cls (Cls.neg (Common.space))) (.setEnt (.own 3)), .cb)]
  sw := [((.own 0), .ls), ((.own 3), .code), (.internalNl, .internalNewline), (.newline, .newline)]

/-- src/parsers/objective_c.rl:83
```
  objc_line_comment_entity = '//' (escaped_newline | nonnewline)*;
``` -/
def objc_line_comment_entity : Rx := .seqs [.lit [47, 47], .star (.alts [Common.escaped_newline, .cls (Common.nonnewline)])]

/-- src/parsers/objective_c.rl:84
```
  objc_block_comment_entity = '/*' any* :>> '*/';
``` -/
def objc_block_comment_entity : Rx := .guard (.seqs [.lit [47, 42], .star (.cls (Cls.any))]) (.lit [42, 47])

/-- src/parsers/objective_c.rl:85
```
  objc_comment_entity = objc_line_comment_entity | objc_block_comment_entity;
``` -/
def objc_comment_entity : Rx := .alts [objc_line_comment_entity, objc_block_comment_entity]

/-- src/parsers/objective_c.rl:87-92.
```
  objc_entity := |*
    space+              ${ entity = OBJC_SPACE;   } => objc_ecallback;
    objc_comment_entity ${ entity = OBJC_COMMENT; } => objc_ecallback;
    # TODO:
    ^space;
  *|;
``` -/
def objc_entity : Scanner where
  pats := [
  (.all (.plus (.cls (Common.space))) (.setEnt (.own 0)), .ecb),
  (.all (objc_comment_entity) (.setEnt (.own 1)), .ecb),
  (.cls (Cls.neg (Common.space)), .none)]
  sw := []

end Ohcount.Gram.ObjectiveC

namespace Ohcount.Gram.ObjectiveJ
open Ohcount.Ragel

/-- src/parsers/objective_j.rl:48-55
```
  objj_line_comment =
    '//' @comment (
      escaped_newline %{ entity = INTERNAL_NL; } %objj_ccallback
      |
      ws
      |
      (nonnewline - ws) @comment
    )*;
``` -/
def objj_line_comment : Rx := .seqs [.fin (.lit [47, 47]) .comment, .star (.alts [.leave (.leave (Common.escaped_newline) (.setEnt .internalNl)) .cb, .cls (Common.ws), .fin (.cls (Cls.diff (Common.nonnewline) (Common.ws))) .comment])]

/-- src/parsers/objective_j.rl:56-63
```
    objj_block_comment =
    '/*' @comment (
      newline %{ entity = INTERNAL_NL; } %objj_ccallback
      |
      ws
      |
      (nonnewline - ws) @comment
    )* :>> '*/';
``` -/
def objj_block_comment : Rx := .guard (.seqs [.fin (.lit [47, 42]) .comment, .star (.alts [.leave (.leave (Common.newline) (.setEnt .internalNl)) .cb, .cls (Common.ws), .fin (.cls (Cls.diff (Common.nonnewline) (Common.ws))) .comment])]) (.lit [42, 47])

/-- src/parsers/objective_j.rl:64
```
  objj_comment = objj_line_comment | objj_block_comment;
``` -/
def objj_comment : Rx := .alts [objj_line_comment, objj_block_comment]

/-- src/parsers/objective_j.rl:66
```
  objj_sq_str = '\'' @code ([^\r\n\f'\\] | '\\' nonnewline)* '\'';
``` -/
def objj_sq_str : Rx := .seqs [.fin (.cls (Cls.chr 39)) .code, .star (.alts [.cls (Cls.neg (Cls.ranges [(10, 10), (12, 13), (39, 39), (92, 92)])), .seqs [.cls (Cls.chr 92), .cls (Common.nonnewline)]]), .cls (Cls.chr 39)]

/-- src/parsers/objective_j.rl:67
```
  objj_dq_str = '"' @code ([^\r\n\f"\\] | '\\' nonnewline)* '"';
``` -/
def objj_dq_str : Rx := .seqs [.fin (.cls (Cls.chr 34)) .code, .star (.alts [.cls (Cls.neg (Cls.ranges [(10, 10), (12, 13), (34, 34), (92, 92)])), .seqs [.cls (Cls.chr 92), .cls (Common.nonnewline)]]), .cls (Cls.chr 34)]

/-- src/parsers/objective_j.rl:68
```
  objj_string = objj_sq_str | objj_dq_str;
``` -/
def objj_string : Rx := .alts [objj_sq_str, objj_dq_str]

/-- src/parsers/objective_j.rl:70-76 with the cases of its callback (src/parsers/objective_j.rl:32-46).
```
  objj_line := |*
    spaces        ${ entity = OBJJ_SPACE; } => objj_ccallback;
    objj_comment;
    objj_string;
    newline       ${ entity = NEWLINE;    } => objj_ccallback;
    ^space        ${ entity = OBJJ_ANY;   } => objj_ccallback;
  *|;
``` -/
def objj_line : Scanner where
  pats := [
  (.all (Common.spaces) (.setEnt (.own 0)), .cb),
  (objj_comment, .none),
  (objj_string, .none),
  (.all (Common.newline) (.setEnt .newline), .cb),
  (.all (.cls (Cls.neg (Common.space))) (.setEnt (.own 3)), .cb)]
  sw := [((.own 0), .ls), ((.own 3), .code), (.internalNl, .internalNewline), (.newline, .newline)]

/-- src/parsers/objective_j.rl:84
```
  objj_line_comment_entity = '//' (escaped_newline | nonnewline)*;
``` -/
def objj_line_comment_entity : Rx := .seqs [.lit [47, 47], .star (.alts [Common.escaped_newline, .cls (Common.nonnewline)])]

/-- src/parsers/objective_j.rl:85
```
  objj_block_comment_entity = '/*' any* :>> '*/';
``` -/
def objj_block_comment_entity : Rx := .guard (.seqs [.lit [47, 42], .star (.cls (Cls.any))]) (.lit [42, 47])

/-- src/parsers/objective_j.rl:86
```
  objj_comment_entity = objj_line_comment_entity | objj_block_comment_entity;
``` -/
def objj_comment_entity : Rx := .alts [objj_line_comment_entity, objj_block_comment_entity]

/-- src/parsers/objective_j.rl:88-93.
```
  objj_entity := |*
    space+              ${ entity = OBJJ_SPACE;   } => objj_ecallback;
    objj_comment_entity ${ entity = OBJJ_COMMENT; } => objj_ecallback;
    # TODO:
    ^space;
  *|;
``` -/
def objj_entity : Scanner where
  pats := [
  (.all (.plus (.cls (Common.space))) (.setEnt (.own 0)), .ecb),
  (.all (objj_comment_entity) (.setEnt (.own 1)), .ecb),
  (.cls (Cls.neg (Common.space)), .none)]
  sw := []

end Ohcount.Gram.ObjectiveJ

namespace Ohcount.Gram.Ocaml
open Ohcount.Ragel

/-- src/parsers/ocaml.rl:49-60
```
  ocaml_nested_block_comment =
    '(*' >ocaml_comment_nc_res @comment (
      newline %{ entity = INTERNAL_NL; } %ocaml_ccallback
      |
      ws
      |
      '(*' @ocaml_comment_nc_inc @comment
      |
      '*)' @ocaml_comment_nc_dec @comment
      |
      (nonnewline - ws) @comment
    )* :>> ('*)' when { nest_count == 0 }) @comment;
``` -/
def ocaml_nested_block_comment : Rx := .guard (.seqs [.fin (.ent (.lit [40, 42]) .nestRes) .comment, .star (.alts [.leave (.leave (Common.newline) (.setEnt .internalNl)) .cb, .cls (Common.ws), .fin (.fin (.lit [40, 42]) .nestInc) .comment, .fin (.fin (.lit [42, 41]) .nestDec) .comment, .fin (.cls (Cls.diff (Common.nonnewline) (Common.ws))) .comment])]) (.fin (.cond (.lit [42, 41]) .nestZero) .comment)

/-- src/parsers/ocaml.rl:62
```
  ocaml_comment = ocaml_nested_block_comment;
``` -/
def ocaml_comment : Rx := ocaml_nested_block_comment

/-- src/parsers/ocaml.rl:63
```
  ocaml_string = '"' @code ([^\r\n\f"\\] | '\\' nonnewline)* '"';
``` -/
def ocaml_string : Rx := .seqs [.fin (.cls (Cls.chr 34)) .code, .star (.alts [.cls (Cls.neg (Cls.ranges [(10, 10), (12, 13), (34, 34), (92, 92)])), .seqs [.cls (Cls.chr 92), .cls (Common.nonnewline)]]), .cls (Cls.chr 34)]

/-- src/parsers/ocaml.rl:66-72 with the cases of its callback (src/parsers/ocaml.rl:29-43).
```
  ocaml_line := |*
    spaces          ${ entity = OCAML_SPACE; } => ocaml_ccallback;
    ocaml_comment;
    ocaml_string;
    newline         ${ entity = NEWLINE;      } => ocaml_ccallback;
    ^space          ${ entity = OCAML_ANY;   } => ocaml_ccallback;
  *|;
``` -/
def ocaml_line : Scanner where
  pats := [
  (.all (Common.spaces) (.setEnt (.own 0)), .cb),
  (ocaml_comment, .none),
  (ocaml_string, .none),
  (.all (Common.newline) (.setEnt .newline), .cb),
  (.all (.cls (Cls.neg (Common.space))) (.setEnt (.own 3)), .cb)]
  sw := [((.own 0), .ls), ((.own 3), .code), (.internalNl, .internalNewline), (.newline, .newline)]

/-- src/parsers/ocaml.rl:80-86
```
  ocaml_comment_entity = '(*' >ocaml_comment_nc_res (
    '(*' @ocaml_comment_nc_inc
    |
    '*)' @ocaml_comment_nc_dec
    |
    any
  )* :>> ('*)' when { nest_count == 0 });
``` -/
def ocaml_comment_entity : Rx := .guard (.seqs [.ent (.lit [40, 42]) .nestRes, .star (.alts [.fin (.lit [40, 42]) .nestInc, .fin (.lit [42, 41]) .nestDec, .cls (Cls.any)])]) (.cond (.lit [42, 41]) .nestZero)

/-- src/parsers/ocaml.rl:88-93.
```
  ocaml_entity := |*
    space+               ${ entity = OCAML_SPACE;   } => ocaml_ecallback;
    ocaml_comment_entity ${ entity = OCAML_COMMENT; } => ocaml_ecallback;
    # TODO:
    ^space;
  *|;
``` -/
def ocaml_entity : Scanner where
  pats := [
  (.all (.plus (.cls (Common.space))) (.setEnt (.own 0)), .ecb),
  (.all (ocaml_comment_entity) (.setEnt (.own 1)), .ecb),
  (.cls (Cls.neg (Common.space)), .none)]
  sw := []

end Ohcount.Gram.Ocaml

namespace Ohcount.Gram.Octave
open Ohcount.Ragel

/-- src/parsers/octave.rl:50
```
  octave_line_comment = (('%' | '...') [^{] @{ fhold; } | '#') @comment nonnewline*;
``` -/
def octave_line_comment : Rx := .seqs [.fin (.alts [.seqs [.alts [.cls (Cls.chr 37), .lit [46, 46, 46]], .fin (.cls (Cls.neg (Cls.chr 123))) (.fhold 0)], .cls (Cls.chr 35)]) .comment, .star (.cls (Common.nonnewline))]

/-- src/parsers/octave.rl:51-58
```
  octave_block_comment =
    '%{' @comment (
      newline %{ entity = INTERNAL_NL; } %octave_ccallback
      |
      ws
      |
      (nonnewline - ws) @code
    )* :>> '%}';
``` -/
def octave_block_comment : Rx := .guard (.seqs [.fin (.lit [37, 123]) .comment, .star (.alts [.leave (.leave (Common.newline) (.setEnt .internalNl)) .cb, .cls (Common.ws), .fin (.cls (Cls.diff (Common.nonnewline) (Common.ws))) .code])]) (.lit [37, 125])

/-- src/parsers/octave.rl:59
```
  octave_comment = octave_line_comment | octave_block_comment;
``` -/
def octave_comment : Rx := .alts [octave_line_comment, octave_block_comment]

/-- src/parsers/octave.rl:61
```
  octave_sq_str = '\'' @code ([^\r\n\f'\\] | '\\' nonnewline)* '\'';
``` -/
def octave_sq_str : Rx := .seqs [.fin (.cls (Cls.chr 39)) .code, .star (.alts [.cls (Cls.neg (Cls.ranges [(10, 10), (12, 13), (39, 39), (92, 92)])), .seqs [.cls (Cls.chr 92), .cls (Common.nonnewline)]]), .cls (Cls.chr 39)]

/-- src/parsers/octave.rl:62
```
  octave_dq_str = '"' @code ([^\r\n\f"\\] | '\\' nonnewline)* '"';
``` -/
def octave_dq_str : Rx := .seqs [.fin (.cls (Cls.chr 34)) .code, .star (.alts [.cls (Cls.neg (Cls.ranges [(10, 10), (12, 13), (34, 34), (92, 92)])), .seqs [.cls (Cls.chr 92), .cls (Common.nonnewline)]]), .cls (Cls.chr 34)]

/-- src/parsers/octave.rl:63
```
  octave_string = octave_sq_str | octave_dq_str;
``` -/
def octave_string : Rx := .alts [octave_sq_str, octave_dq_str]

/-- src/parsers/octave.rl:65-71 with the cases of its callback (src/parsers/octave.rl:31-45).
```
  octave_line := |*
    spaces          ${ entity = OCTAVE_SPACE; } => octave_ccallback;
    octave_comment;
    octave_string;
    newline         ${ entity = NEWLINE;      } => octave_ccallback;
    ^space          ${ entity = OCTAVE_ANY;   } => octave_ccallback;
  *|;
``` -/
def octave_line : Scanner where
  pats := [
  (.all (Common.spaces) (.setEnt (.own 0)), .cb),
  (octave_comment, .none),
  (octave_string, .none),
  (.all (Common.newline) (.setEnt .newline), .cb),
  (.all (.cls (Cls.neg (Common.space))) (.setEnt (.own 3)), .cb)]
  sw := [((.own 0), .ls), ((.own 3), .code), (.internalNl, .internalNewline), (.newline, .newline)]

/-- src/parsers/octave.rl:80
```
  octave_line_comment_entity = (('%' | '...') [^{] @{ fhold; } | '#') nonnewline*;
``` -/
def octave_line_comment_entity : Rx := .seqs [.alts [.seqs [.alts [.cls (Cls.chr 37), .lit [46, 46, 46]], .fin (.cls (Cls.neg (Cls.chr 123))) (.fhold 1)], .cls (Cls.chr 35)], .star (.cls (Common.nonnewline))]

/-- src/parsers/octave.rl:81
```
  octave_block_comment_entity = '%{' any* :>> '%}';
``` -/
def octave_block_comment_entity : Rx := .guard (.seqs [.lit [37, 123], .star (.cls (Cls.any))]) (.lit [37, 125])

/-- src/parsers/octave.rl:82-83
```
  octave_comment_entity =
    octave_line_comment_entity | octave_block_comment_entity;
``` -/
def octave_comment_entity : Rx := .alts [octave_line_comment_entity, octave_block_comment_entity]

/-- src/parsers/octave.rl:85-90.
```
  octave_entity := |*
    space+                ${ entity = OCTAVE_SPACE;   } => octave_ecallback;
    octave_comment_entity ${ entity = OCTAVE_COMMENT; } => octave_ecallback;
    # TODO:
    ^space;
  *|;
``` -/
def octave_entity : Scanner where
  pats := [
  (.all (.plus (.cls (Common.space))) (.setEnt (.own 0)), .ecb),
  (.all (octave_comment_entity) (.setEnt (.own 1)), .ecb),
  (.cls (Cls.neg (Common.space)), .none)]
  sw := []

end Ohcount.Gram.Octave

namespace Ohcount.Gram.Pascal
open Ohcount.Ragel

/-- src/parsers/pascal.rl:47
```
  pascal_line_comment = '//' @comment nonnewline*;
``` -/
def pascal_line_comment : Rx := .seqs [.fin (.lit [47, 47]) .comment, .star (.cls (Common.nonnewline))]

/-- src/parsers/pascal.rl:48-55
```
  pascal_old_block_comment =
    '(*' @comment (
      newline %{ entity = INTERNAL_NL; } %pascal_ccallback
      |
      ws
      |
      (nonnewline - ws) @code
    )* :>> '*)';
``` -/
def pascal_old_block_comment : Rx := .guard (.seqs [.fin (.lit [40, 42]) .comment, .star (.alts [.leave (.leave (Common.newline) (.setEnt .internalNl)) .cb, .cls (Common.ws), .fin (.cls (Cls.diff (Common.nonnewline) (Common.ws))) .code])]) (.lit [42, 41])

/-- src/parsers/pascal.rl:56-63
```
  pascal_turbo_block_comment =
    '{' @comment (
      newline %{ entity = INTERNAL_NL; } %pascal_ccallback
      |
      ws
      |
      (nonnewline - ws) @comment
    )* :>> '}';
``` -/
def pascal_turbo_block_comment : Rx := .guard (.seqs [.fin (.cls (Cls.chr 123)) .comment, .star (.alts [.leave (.leave (Common.newline) (.setEnt .internalNl)) .cb, .cls (Common.ws), .fin (.cls (Cls.diff (Common.nonnewline) (Common.ws))) .comment])]) (.cls (Cls.chr 125))

/-- src/parsers/pascal.rl:64-65
```
  pascal_comment = pascal_line_comment | pascal_old_block_comment |
                   pascal_turbo_block_comment;
``` -/
def pascal_comment : Rx := .alts [pascal_line_comment, pascal_old_block_comment, pascal_turbo_block_comment]

/-- src/parsers/pascal.rl:67-76
```
  pascal_string =
    '\'' @code (
      newline %{ entity = INTERNAL_NL; } %pascal_ccallback
      |
      ws
      |
      [^\r\n\f\t '\\] @code
      |
      '\\' nonnewline @code
    )* '\'';
``` -/
def pascal_string : Rx := .seqs [.fin (.cls (Cls.chr 39)) .code, .star (.alts [.leave (.leave (Common.newline) (.setEnt .internalNl)) .cb, .cls (Common.ws), .fin (.cls (Cls.neg (Cls.ranges [(9, 10), (12, 13), (32, 32), (39, 39), (92, 92)]))) .code, .seqs [.cls (Cls.chr 92), .fin (.cls (Common.nonnewline)) .code]]), .cls (Cls.chr 39)]

/-- src/parsers/pascal.rl:78-84 with the cases of its callback (src/parsers/pascal.rl:31-45).
```
  pascal_line := |*
    spaces          ${ entity = PASCAL_SPACE; } => pascal_ccallback;
    pascal_comment;
    pascal_string;
    newline         ${ entity = NEWLINE;      } => pascal_ccallback;
    ^space          ${ entity = PASCAL_ANY;   } => pascal_ccallback;
  *|;
``` -/
def pascal_line : Scanner where
  pats := [
  (.all (Common.spaces) (.setEnt (.own 0)), .cb),
  (pascal_comment, .none),
  (pascal_string, .none),
  (.all (Common.newline) (.setEnt .newline), .cb),
  (.all (.cls (Cls.neg (Common.space))) (.setEnt (.own 3)), .cb)]
  sw := [((.own 0), .ls), ((.own 3), .code), (.internalNl, .internalNewline), (.newline, .newline)]

/-- src/parsers/pascal.rl:93
```
  pascal_line_comment_entity = '//' nonnewline*;
``` -/
def pascal_line_comment_entity : Rx := .seqs [.lit [47, 47], .star (.cls (Common.nonnewline))]

/-- src/parsers/pascal.rl:94
```
  pascal_old_block_comment_entity = '(*' any* :>> '*)';
``` -/
def pascal_old_block_comment_entity : Rx := .guard (.seqs [.lit [40, 42], .star (.cls (Cls.any))]) (.lit [42, 41])

/-- src/parsers/pascal.rl:95
```
  pascal_turbo_block_comment_entity = '{' any* :>> '}';
``` -/
def pascal_turbo_block_comment_entity : Rx := .guard (.seqs [.cls (Cls.chr 123), .star (.cls (Cls.any))]) (.cls (Cls.chr 125))

/-- src/parsers/pascal.rl:96-97
```
  pascal_comment_entity = pascal_line_comment_entity |
    pascal_old_block_comment_entity | pascal_turbo_block_comment_entity;
``` -/
def pascal_comment_entity : Rx := .alts [pascal_line_comment_entity, pascal_old_block_comment_entity, pascal_turbo_block_comment_entity]

/-- src/parsers/pascal.rl:99-104.
```
  pascal_entity := |*
    space+                ${ entity = PASCAL_SPACE;   } => pascal_ecallback;
    pascal_comment_entity ${ entity = PASCAL_COMMENT; } => pascal_ecallback;
    # TODO:
    ^space;
  *|;
``` -/
def pascal_entity : Scanner where
  pats := [
  (.all (.plus (.cls (Common.space))) (.setEnt (.own 0)), .ecb),
  (.all (pascal_comment_entity) (.setEnt (.own 1)), .ecb),
  (.cls (Cls.neg (Common.space)), .none)]
  sw := []

end Ohcount.Gram.Pascal

namespace Ohcount.Gram.Php
open Ohcount.Ragel

/-- src/parsers/php.rl:51
```
  php_line_comment = ('//' | '#') @comment nonnewline*;
``` -/
def php_line_comment : Rx := .seqs [.fin (.alts [.lit [47, 47], .cls (Cls.chr 35)]) .comment, .star (.cls (Common.nonnewline))]

/-- src/parsers/php.rl:52-59
```
  php_block_comment =
    '/*' @comment (
      newline %{ entity = INTERNAL_NL; } %php_ccallback
      |
      ws
      |
      (nonnewline - ws) @comment
    )* :>> '*/';
``` -/
def php_block_comment : Rx := .guard (.seqs [.fin (.lit [47, 42]) .comment, .star (.alts [.leave (.leave (Common.newline) (.setEnt .internalNl)) .cb, .cls (Common.ws), .fin (.cls (Cls.diff (Common.nonnewline) (Common.ws))) .comment])]) (.lit [42, 47])

/-- src/parsers/php.rl:60
```
  php_comment = php_line_comment | php_block_comment;
``` -/
def php_comment : Rx := .alts [php_line_comment, php_block_comment]

/-- src/parsers/php.rl:62-71
```
  php_sq_str =
    '\'' @enqueue @code (
      newline %{ entity = INTERNAL_NL; } %php_ccallback
      |
      ws
      |
      [^\r\n\f'\\] @code
      |
      '\\' nonnewline @code
    )* '\'' @commit @code;
``` -/
def php_sq_str : Rx := .seqs [.fin (.fin (.cls (Cls.chr 39)) .enqueue) .code, .star (.alts [.leave (.leave (Common.newline) (.setEnt .internalNl)) .cb, .cls (Common.ws), .fin (.cls (Cls.neg (Cls.ranges [(10, 10), (12, 13), (39, 39), (92, 92)]))) .code, .seqs [.cls (Cls.chr 92), .fin (.cls (Common.nonnewline)) .code]]), .fin (.fin (.cls (Cls.chr 39)) .commit) .code]

/-- src/parsers/php.rl:72-81
```
  php_dq_str =
    '"' @enqueue @code (
      newline %{ entity = INTERNAL_NL; } %php_ccallback
      |
      ws
      |
      [^\r\n\f"\\] @code
      |
      '\\' nonnewline @code
    )* '"' @commit @code;
``` -/
def php_dq_str : Rx := .seqs [.fin (.fin (.cls (Cls.chr 34)) .enqueue) .code, .star (.alts [.leave (.leave (Common.newline) (.setEnt .internalNl)) .cb, .cls (Common.ws), .fin (.cls (Cls.neg (Cls.ranges [(10, 10), (12, 13), (34, 34), (92, 92)]))) .code, .seqs [.cls (Cls.chr 92), .fin (.cls (Common.nonnewline)) .code]]), .fin (.fin (.cls (Cls.chr 34)) .commit) .code]

/-- src/parsers/php.rl:83
```
  php_string = php_sq_str | php_dq_str;
``` -/
def php_string : Rx := .alts [php_sq_str, php_dq_str]

/-- src/parsers/php.rl:85-91 with the cases of its callback (src/parsers/php.rl:31-49).
```
  php_line := |*
    spaces       ${ entity = PHP_SPACE; } => php_ccallback;
    php_comment;
    php_string;
    newline      ${ entity = NEWLINE;   } => php_ccallback;
    ^space       ${ entity = PHP_ANY;   } => php_ccallback;
  *|;
``` -/
def php_line : Scanner where
  pats := [
  (.all (Common.spaces) (.setEnt (.own 0)), .cb),
  (php_comment, .none),
  (php_string, .none),
  (.all (Common.newline) (.setEnt .newline), .cb),
  (.all (.cls (Cls.neg (Common.space))) (.setEnt (.own 3)), .cb)]
  sw := [((.own 0), .ls), ((.own 3), .code), (.internalNl, .internalNewline), (.newline, .newline)]

/-- src/parsers/php.rl:99
```
  php_line_comment_entity = ('#' | '//') nonnewline*;
``` -/
def php_line_comment_entity : Rx := .seqs [.alts [.cls (Cls.chr 35), .lit [47, 47]], .star (.cls (Common.nonnewline))]

/-- src/parsers/php.rl:100
```
  php_block_comment_entity = '/*' any* :>> '*/';
``` -/
def php_block_comment_entity : Rx := .guard (.seqs [.lit [47, 42], .star (.cls (Cls.any))]) (.lit [42, 47])

/-- src/parsers/php.rl:101
```
  php_comment_entity = php_line_comment_entity | php_block_comment_entity;
``` -/
def php_comment_entity : Rx := .alts [php_line_comment_entity, php_block_comment_entity]

/-- src/parsers/php.rl:103-108.
```
  php_entity := |*
    space+             ${ entity = PHP_SPACE;   } => php_ecallback;
    php_comment_entity ${ entity = PHP_COMMENT; } => php_ecallback;
    # TODO:
    ^space;
  *|;
``` -/
def php_entity : Scanner where
  pats := [
  (.all (.plus (.cls (Common.space))) (.setEnt (.own 0)), .ecb),
  (.all (php_comment_entity) (.setEnt (.own 1)), .ecb),
  (.cls (Cls.neg (Common.space)), .none)]
  sw := []

end Ohcount.Gram.Php

namespace Ohcount.Gram.Pike
open Ohcount.Ragel

/-- src/parsers/pike.rl:47
```
  pike_line_comment = '//' @comment nonnewline*;
``` -/
def pike_line_comment : Rx := .seqs [.fin (.lit [47, 47]) .comment, .star (.cls (Common.nonnewline))]

/-- src/parsers/pike.rl:48-55
```
  pike_block_comment =
    '/*' @comment (
      newline %{ entity = INTERNAL_NL; } %pike_ccallback
      |
      ws
      |
      (nonnewline - ws) @comment
    )* :>> '*/';
``` -/
def pike_block_comment : Rx := .guard (.seqs [.fin (.lit [47, 42]) .comment, .star (.alts [.leave (.leave (Common.newline) (.setEnt .internalNl)) .cb, .cls (Common.ws), .fin (.cls (Cls.diff (Common.nonnewline) (Common.ws))) .comment])]) (.lit [42, 47])

/-- src/parsers/pike.rl:56
```
  pike_comment = pike_line_comment | pike_block_comment;
``` -/
def pike_comment : Rx := .alts [pike_line_comment, pike_block_comment]

/-- src/parsers/pike.rl:58
```
  pike_sq_str = '\'' @code ([^\r\n\f'\\] | '\\' nonnewline)* '\'';
``` -/
def pike_sq_str : Rx := .seqs [.fin (.cls (Cls.chr 39)) .code, .star (.alts [.cls (Cls.neg (Cls.ranges [(10, 10), (12, 13), (39, 39), (92, 92)])), .seqs [.cls (Cls.chr 92), .cls (Common.nonnewline)]]), .cls (Cls.chr 39)]

/-- src/parsers/pike.rl:59
```
  pike_dq_str = '"' @code ([^\r\n\f"\\] | '\\' nonnewline)* '"';
``` -/
def pike_dq_str : Rx := .seqs [.fin (.cls (Cls.chr 34)) .code, .star (.alts [.cls (Cls.neg (Cls.ranges [(10, 10), (12, 13), (34, 34), (92, 92)])), .seqs [.cls (Cls.chr 92), .cls (Common.nonnewline)]]), .cls (Cls.chr 34)]

/-- src/parsers/pike.rl:60
```
  pike_string = pike_sq_str | pike_dq_str;
``` -/
def pike_string : Rx := .alts [pike_sq_str, pike_dq_str]

/-- src/parsers/pike.rl:62-68 with the cases of its callback (src/parsers/pike.rl:31-45).
```
  pike_line := |*
    spaces        ${ entity = PIKE_SPACE; } => pike_ccallback;
    pike_comment;
    pike_string;
    newline       ${ entity = NEWLINE;    } => pike_ccallback;
    ^space        ${ entity = PIKE_ANY;   } => pike_ccallback;
  *|;
``` -/
def pike_line : Scanner where
  pats := [
  (.all (Common.spaces) (.setEnt (.own 0)), .cb),
  (pike_comment, .none),
  (pike_string, .none),
  (.all (Common.newline) (.setEnt .newline), .cb),
  (.all (.cls (Cls.neg (Common.space))) (.setEnt (.own 3)), .cb)]
  sw := [((.own 0), .ls), ((.own 3), .code), (.internalNl, .internalNewline), (.newline, .newline)]

/-- src/parsers/pike.rl:76
```
  pike_line_comment_entity = '//' nonnewline*;
``` -/
def pike_line_comment_entity : Rx := .seqs [.lit [47, 47], .star (.cls (Common.nonnewline))]

/-- src/parsers/pike.rl:77
```
  pike_block_comment_entity = '/*' any* :>> '*/';
``` -/
def pike_block_comment_entity : Rx := .guard (.seqs [.lit [47, 42], .star (.cls (Cls.any))]) (.lit [42, 47])

/-- src/parsers/pike.rl:78
```
  pike_comment_entity = pike_line_comment_entity | pike_block_comment_entity;
``` -/
def pike_comment_entity : Rx := .alts [pike_line_comment_entity, pike_block_comment_entity]

/-- src/parsers/pike.rl:80-85.
```
  pike_entity := |*
    space+              ${ entity = PIKE_SPACE;   } => pike_ecallback;
    pike_comment_entity ${ entity = PIKE_COMMENT; } => pike_ecallback;
    # TODO:
    ^space;
  *|;
``` -/
def pike_entity : Scanner where
  pats := [
  (.all (.plus (.cls (Common.space))) (.setEnt (.own 0)), .ecb),
  (.all (pike_comment_entity) (.setEnt (.own 1)), .ecb),
  (.cls (Cls.neg (Common.space)), .none)]
  sw := []

end Ohcount.Gram.Pike

namespace Ohcount.Gram.Postscript
open Ohcount.Ragel

/-- src/parsers/postscript.rl:45
```
  postscript_comment = '%' @comment nonnewline*;
``` -/
def postscript_comment : Rx := .seqs [.fin (.cls (Cls.chr 37)) .comment, .star (.cls (Common.nonnewline))]

/-- src/parsers/postscript.rl:47
```
  postscript_string = '(' @code ([^\r\n\f])* ')';
``` -/
def postscript_string : Rx := .seqs [.fin (.cls (Cls.chr 40)) .code, .star (.cls (Cls.neg (Cls.ranges [(10, 10), (12, 13)]))), .cls (Cls.chr 41)]

/-- src/parsers/postscript.rl:49-55 with the cases of its callback (src/parsers/postscript.rl:29-43).
```
  postscript_line := |*
    spaces ${ entity = POSTSCRIPT_SPACE; } => postscript_ccallback;
    postscript_comment;
    postscript_string;
    newline ${ entity = NEWLINE;         } => postscript_ccallback;
    ^space ${ entity = POSTSCRIPT_ANY; } => postscript_ccallback;
  *|;
``` -/
def postscript_line : Scanner where
  pats := [
  (.all (Common.spaces) (.setEnt (.own 0)), .cb),
  (postscript_comment, .none),
  (postscript_string, .none),
  (.all (Common.newline) (.setEnt .newline), .cb),
  (.all (.cls (Cls.neg (Common.space))) (.setEnt (.own 3)), .cb)]
  sw := [((.own 0), .ls), ((.own 3), .code), (.internalNl, .internalNewline), (.newline, .newline)]

/-- src/parsers/postscript.rl:64
```
  postscript_comment_entity = '%' nonnewline*;
``` -/
def postscript_comment_entity : Rx := .seqs [.cls (Cls.chr 37), .star (.cls (Common.nonnewline))]

/-- src/parsers/postscript.rl:66-71.
```
  postscript_entity := |*
    space+ ${ entity = POSTSCRIPT_SPACE; } => postscript_ecallback;
    postscript_comment_entity ${ entity = POSTSCRIPT_COMMENT; } => postscript_ecallback;
    # TODO:
    ^space;
  *|;
``` -/
def postscript_entity : Scanner where
  pats := [
  (.all (.plus (.cls (Common.space))) (.setEnt (.own 0)), .ecb),
  (.all (postscript_comment_entity) (.setEnt (.own 1)), .ecb),
  (.cls (Cls.neg (Common.space)), .none)]
  sw := []

end Ohcount.Gram.Postscript

