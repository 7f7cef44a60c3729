import Verif.Gram.Common

/-! Scanners transcribed from src/parsers/: eiffel.rl, elm.rl, erlang.rl, exheres.rl, factor.rl, forth.rl, fortranfixed.rl, fortranfree.rl, fsharp.rl. Generated by tools/gen_grammars.py. -/

namespace Ohcount.Gram.Eiffel
open Ohcount.Ragel

/-- src/parsers/eiffel.rl:45
```
  eiffel_comment = '--' @comment nonnewline*;
``` -/
def eiffel_comment : Rx := .seqs [.fin (.lit [45, 45]) .comment, .star (.cls (Common.nonnewline))]

/-- src/parsers/eiffel.rl:47
```
  eiffel_string = '"' @code [^\r\n\f"]* '"';
``` -/
def eiffel_string : Rx := .seqs [.fin (.cls (Cls.chr 34)) .code, .star (.cls (Cls.neg (Cls.ranges [(10, 10), (12, 13), (34, 34)]))), .cls (Cls.chr 34)]

/-- src/parsers/eiffel.rl:49-55 with the cases of its callback (src/parsers/eiffel.rl:29-43).
```
  eiffel_line := |*
    spaces      ${ entity = EIFFEL_SPACE; } => eiffel_ccallback;
    eiffel_comment;
    eiffel_string;
    newline     ${ entity = NEWLINE;   } => eiffel_ccallback;
    ^space      ${ entity = EIFFEL_ANY;   } => eiffel_ccallback;
  *|;
``` -/
def eiffel_line : Scanner where
  pats := [
  (.all (Common.spaces) (.setEnt (.own 0)), .cb),
  (eiffel_comment, .none),
  (eiffel_string, .none),
  (.all (Common.newline) (.setEnt .newline), .cb),
  (.all (.cls (Cls.neg (Common.space))) (.setEnt (.own 3)), .cb)]
  sw := [((.own 0), .ls), ((.own 3), .code), (.internalNl, .internalNewline), (.newline, .newline)]

/-- src/parsers/eiffel.rl:64
```
  eiffel_comment_entity = '--' nonnewline*;
``` -/
def eiffel_comment_entity : Rx := .seqs [.lit [45, 45], .star (.cls (Common.nonnewline))]

/-- src/parsers/eiffel.rl:66-71.
```
  eiffel_entity := |*
    space+                ${ entity = EIFFEL_SPACE;   } => eiffel_ecallback;
    eiffel_comment_entity ${ entity = EIFFEL_COMMENT; } => eiffel_ecallback;
    # TODO:
    ^space;
  *|;
``` -/
def eiffel_entity : Scanner where
  pats := [
  (.all (.plus (.cls (Common.space))) (.setEnt (.own 0)), .ecb),
  (.all (eiffel_comment_entity) (.setEnt (.own 1)), .ecb),
  (.cls (Cls.neg (Common.space)), .none)]
  sw := []

end Ohcount.Gram.Eiffel

namespace Ohcount.Gram.Elm
open Ohcount.Ragel

/-- src/parsers/elm.rl:52
```
  elm_line_comment = '--' [^>] @{ fhold; } @comment nonnewline*;
``` -/
def elm_line_comment : Rx := .seqs [.lit [45, 45], .fin (.fin (.cls (Cls.neg (Cls.chr 62))) (.fhold 0)) .comment, .star (.cls (Common.nonnewline))]

/-- src/parsers/elm.rl:53-64
```
  elm_nested_block_comment =
    '{-' >elm_comment_nc_res @comment (
      newline %{ entity = INTERNAL_NL; } %elm_ccallback
      |
      ws
      |
      '{-' @elm_comment_nc_inc @comment
      |
      '-}' @elm_comment_nc_dec @comment
      |
      (nonnewline - ws) @comment
    )* :>> ('-}' when { nest_count == 0 }) @comment;
``` -/
def elm_nested_block_comment : Rx := .guard (.seqs [.fin (.ent (.lit [123, 45]) .nestRes) .comment, .star (.alts [.leave (.leave (Common.newline) (.setEnt .internalNl)) .cb, .cls (Common.ws), .fin (.fin (.lit [123, 45]) .nestInc) .comment, .fin (.fin (.lit [45, 125]) .nestDec) .comment, .fin (.cls (Cls.diff (Common.nonnewline) (Common.ws))) .comment])]) (.fin (.cond (.lit [45, 125]) .nestZero) .comment)

/-- src/parsers/elm.rl:65
```
  elm_comment = elm_line_comment | elm_nested_block_comment;
``` -/
def elm_comment : Rx := .alts [elm_line_comment, elm_nested_block_comment]

/-- src/parsers/elm.rl:67
```
  elm_char = '\'' @code ([^\r\n\f'\\] | '\\' nonnewline) '\'';
``` -/
def elm_char : Rx := .seqs [.fin (.cls (Cls.chr 39)) .code, .alts [.cls (Cls.neg (Cls.ranges [(10, 10), (12, 13), (39, 39), (92, 92)])), .seqs [.cls (Cls.chr 92), .cls (Common.nonnewline)]], .cls (Cls.chr 39)]

/-- src/parsers/elm.rl:68-77
```
  elm_dq_str =
    '"' @code (
      escaped_newline %{ entity = INTERNAL_NL; } %elm_ccallback
      |
      ws
      |
      [^\t "\\] @code
      |
      '\\' nonnewline @code
    )* '"';
``` -/
def elm_dq_str : Rx := .seqs [.fin (.cls (Cls.chr 34)) .code, .star (.alts [.leave (.leave (Common.escaped_newline) (.setEnt .internalNl)) .cb, .cls (Common.ws), .fin (.cls (Cls.neg (Cls.chars [9, 32, 34, 92]))) .code, .seqs [.cls (Cls.chr 92), .fin (.cls (Common.nonnewline)) .code]]), .cls (Cls.chr 34)]

/-- src/parsers/elm.rl:78
```
  elm_string = elm_char | elm_dq_str;
``` -/
def elm_string : Rx := .alts [elm_char, elm_dq_str]

/-- src/parsers/elm.rl:80-86 with the cases of its callback (src/parsers/elm.rl:31-45).
```
  elm_line := |*
    spaces           ${ entity = ELM_SPACE; } => elm_ccallback;
    elm_comment;
    elm_string;
    newline          ${ entity = NEWLINE;       } => elm_ccallback;
    ^space           ${ entity = ELM_ANY;   } => elm_ccallback;
  *|;
``` -/
def elm_line : Scanner where
  pats := [
  (.all (Common.spaces) (.setEnt (.own 0)), .cb),
  (elm_comment, .none),
  (elm_string, .none),
  (.all (Common.newline) (.setEnt .newline), .cb),
  (.all (.cls (Cls.neg (Common.space))) (.setEnt (.own 3)), .cb)]
  sw := [((.own 0), .ls), ((.own 3), .code), (.internalNl, .internalNewline), (.newline, .newline)]

/-- src/parsers/elm.rl:95
```
  elm_line_comment_entity = '--' [^>] @{ fhold; } nonnewline*;
``` -/
def elm_line_comment_entity : Rx := .seqs [.lit [45, 45], .fin (.cls (Cls.neg (Cls.chr 62))) (.fhold 1), .star (.cls (Common.nonnewline))]

/-- src/parsers/elm.rl:96-102
```
  elm_block_comment_entity = '{-' >elm_comment_nc_res (
    '{-' @elm_comment_nc_inc
    |
    '-}' @elm_comment_nc_dec
    |
    any
  )* :>> ('-}' when { nest_count == 0 });
``` -/
def elm_block_comment_entity : Rx := .guard (.seqs [.ent (.lit [123, 45]) .nestRes, .star (.alts [.fin (.lit [123, 45]) .nestInc, .fin (.lit [45, 125]) .nestDec, .cls (Cls.any)])]) (.cond (.lit [45, 125]) .nestZero)

/-- src/parsers/elm.rl:103-104
```
  elm_comment_entity =
    elm_line_comment_entity | elm_block_comment_entity;
``` -/
def elm_comment_entity : Rx := .alts [elm_line_comment_entity, elm_block_comment_entity]

/-- src/parsers/elm.rl:106-111.
```
  elm_entity := |*
    space+                 ${ entity = ELM_SPACE;   } => elm_ecallback;
    elm_comment_entity ${ entity = ELM_COMMENT; } => elm_ecallback;
    # TODO:
    ^space;
  *|;
``` -/
def elm_entity : Scanner where
  pats := [
  (.all (.plus (.cls (Common.space))) (.setEnt (.own 0)), .ecb),
  (.all (elm_comment_entity) (.setEnt (.own 1)), .ecb),
  (.cls (Cls.neg (Common.space)), .none)]
  sw := []

end Ohcount.Gram.Elm

namespace Ohcount.Gram.Erlang
open Ohcount.Ragel

/-- src/parsers/erlang.rl:47
```
  erlang_comment = '%%' @comment nonnewline*;
``` -/
def erlang_comment : Rx := .seqs [.fin (.lit [37, 37]) .comment, .star (.cls (Common.nonnewline))]

/-- src/parsers/erlang.rl:49
```
  erlang_sq_str = '\'' @code ([^\r\n\f'\\] | '\\' nonnewline)* '\'';
``` -/
def erlang_sq_str : Rx := .seqs [.fin (.cls (Cls.chr 39)) .code, .star (.alts [.cls (Cls.neg (Cls.ranges [(10, 10), (12, 13), (39, 39), (92, 92)])), .seqs [.cls (Cls.chr 92), .cls (Common.nonnewline)]]), .cls (Cls.chr 39)]

/-- src/parsers/erlang.rl:50
```
  erlang_dq_str = '"' @code ([^\r\n\f"\\] | '\\' nonnewline)* '"';
``` -/
def erlang_dq_str : Rx := .seqs [.fin (.cls (Cls.chr 34)) .code, .star (.alts [.cls (Cls.neg (Cls.ranges [(10, 10), (12, 13), (34, 34), (92, 92)])), .seqs [.cls (Cls.chr 92), .cls (Common.nonnewline)]]), .cls (Cls.chr 34)]

/-- src/parsers/erlang.rl:51
```
  erlang_string = erlang_sq_str | erlang_dq_str;
``` -/
def erlang_string : Rx := .alts [erlang_sq_str, erlang_dq_str]

/-- src/parsers/erlang.rl:53-59 with the cases of its callback (src/parsers/erlang.rl:31-45).
```
  erlang_line := |*
    spaces      ${ entity = ERLANG_SPACE; } => erlang_ccallback;
    erlang_comment;
    erlang_string;
    newline     ${ entity = NEWLINE;   } => erlang_ccallback;
    ^space      ${ entity = ERLANG_ANY;   } => erlang_ccallback;
  *|;
``` -/
def erlang_line : Scanner where
  pats := [
  (.all (Common.spaces) (.setEnt (.own 0)), .cb),
  (erlang_comment, .none),
  (erlang_string, .none),
  (.all (Common.newline) (.setEnt .newline), .cb),
  (.all (.cls (Cls.neg (Common.space))) (.setEnt (.own 3)), .cb)]
  sw := [((.own 0), .ls), ((.own 3), .code), (.internalNl, .internalNewline), (.newline, .newline)]

/-- src/parsers/erlang.rl:68
```
  erlang_comment_entity = '%' nonnewline*;
``` -/
def erlang_comment_entity : Rx := .seqs [.cls (Cls.chr 37), .star (.cls (Common.nonnewline))]

/-- src/parsers/erlang.rl:70-75.
```
  erlang_entity := |*
    space+                ${ entity = ERLANG_SPACE;   } => erlang_ecallback;
    erlang_comment_entity ${ entity = ERLANG_COMMENT; } => erlang_ecallback;
    # TODO:
    ^space;
  *|;
``` -/
def erlang_entity : Scanner where
  pats := [
  (.all (.plus (.cls (Common.space))) (.setEnt (.own 0)), .ecb),
  (.all (erlang_comment_entity) (.setEnt (.own 1)), .ecb),
  (.cls (Cls.neg (Common.space)), .none)]
  sw := []

end Ohcount.Gram.Erlang

namespace Ohcount.Gram.Exheres
open Ohcount.Ragel

/-- src/parsers/exheres.rl:47
```
  exheres_comment = '#' @comment nonnewline*;
``` -/
def exheres_comment : Rx := .seqs [.fin (.cls (Cls.chr 35)) .comment, .star (.cls (Common.nonnewline))]

/-- src/parsers/exheres.rl:49
```
  exheres_sq_str = '\'' @code ([^\r\n\f'\\] | '\\' nonnewline)* '\'';
``` -/
def exheres_sq_str : Rx := .seqs [.fin (.cls (Cls.chr 39)) .code, .star (.alts [.cls (Cls.neg (Cls.ranges [(10, 10), (12, 13), (39, 39), (92, 92)])), .seqs [.cls (Cls.chr 92), .cls (Common.nonnewline)]]), .cls (Cls.chr 39)]

/-- src/parsers/exheres.rl:50
```
  exheres_dq_str = '"' @code ([^\r\n\f"\\] | '\\' nonnewline)* '"';
``` -/
def exheres_dq_str : Rx := .seqs [.fin (.cls (Cls.chr 34)) .code, .star (.alts [.cls (Cls.neg (Cls.ranges [(10, 10), (12, 13), (34, 34), (92, 92)])), .seqs [.cls (Cls.chr 92), .cls (Common.nonnewline)]]), .cls (Cls.chr 34)]

/-- src/parsers/exheres.rl:51
```
  exheres_string = exheres_sq_str | exheres_dq_str;
``` -/
def exheres_string : Rx := .alts [exheres_sq_str, exheres_dq_str]

/-- src/parsers/exheres.rl:53-59 with the cases of its callback (src/parsers/exheres.rl:31-45).
```
  exheres_line := |*
    spaces           ${ entity = EXHERES_SPACE; } => exheres_ccallback;
    exheres_comment;
    exheres_string;
    newline          ${ entity = NEWLINE;       } => exheres_ccallback;
    ^space           ${ entity = EXHERES_ANY;   } => exheres_ccallback;
  *|;
``` -/
def exheres_line : Scanner where
  pats := [
  (.all (Common.spaces) (.setEnt (.own 0)), .cb),
  (exheres_comment, .none),
  (exheres_string, .none),
  (.all (Common.newline) (.setEnt .newline), .cb),
  (.all (.cls (Cls.neg (Common.space))) (.setEnt (.own 3)), .cb)]
  sw := [((.own 0), .ls), ((.own 3), .code), (.internalNl, .internalNewline), (.newline, .newline)]

/-- src/parsers/exheres.rl:68
```
  exheres_comment_entity = '#' nonnewline*;
``` -/
def exheres_comment_entity : Rx := .seqs [.cls (Cls.chr 35), .star (.cls (Common.nonnewline))]

/-- src/parsers/exheres.rl:70-75.
```
  exheres_entity := |*
    space+                 ${ entity = EXHERES_SPACE;   } => exheres_ecallback;
    exheres_comment_entity ${ entity = EXHERES_COMMENT; } => exheres_ecallback;
    # TODO:
    ^space;
  *|;
``` -/
def exheres_entity : Scanner where
  pats := [
  (.all (.plus (.cls (Common.space))) (.setEnt (.own 0)), .ecb),
  (.all (exheres_comment_entity) (.setEnt (.own 1)), .ecb),
  (.cls (Cls.neg (Common.space)), .none)]
  sw := []

end Ohcount.Gram.Exheres

namespace Ohcount.Gram.Factor
open Ohcount.Ragel

/-- src/parsers/factor.rl:48
```
  factor_comment = '!' @comment nonnewline*;
``` -/
def factor_comment : Rx := .seqs [.fin (.cls (Cls.chr 33)) .comment, .star (.cls (Common.nonnewline))]

/-- src/parsers/factor.rl:50-59
```
  factor_string =
    '"' @code (
      newline %{ entity = INTERNAL_NL; } %factor_ccallback
      |
      ws
      |
      [^\r\n\f\t "\\] @code
      |
      '\\' nonnewline @code
    )* '"';
``` -/
def factor_string : Rx := .seqs [.fin (.cls (Cls.chr 34)) .code, .star (.alts [.leave (.leave (Common.newline) (.setEnt .internalNl)) .cb, .cls (Common.ws), .fin (.cls (Cls.neg (Cls.ranges [(9, 10), (12, 13), (32, 32), (34, 34), (92, 92)]))) .code, .seqs [.cls (Cls.chr 92), .fin (.cls (Common.nonnewline)) .code]]), .cls (Cls.chr 34)]

/-- src/parsers/factor.rl:61-67 with the cases of its callback (src/parsers/factor.rl:32-46).
```
  factor_line := |*
    spaces        ${ entity = FACTOR_SPACE; } => factor_ccallback;
    factor_comment;
    factor_string;
    newline       ${ entity = NEWLINE;    } => factor_ccallback;
    ^space        ${ entity = FACTOR_ANY;   } => factor_ccallback;
  *|;
``` -/
def factor_line : Scanner where
  pats := [
  (.all (Common.spaces) (.setEnt (.own 0)), .cb),
  (factor_comment, .none),
  (factor_string, .none),
  (.all (Common.newline) (.setEnt .newline), .cb),
  (.all (.cls (Cls.neg (Common.space))) (.setEnt (.own 3)), .cb)]
  sw := [((.own 0), .ls), ((.own 3), .code), (.internalNl, .internalNewline), (.newline, .newline)]

end Ohcount.Gram.Factor

namespace Ohcount.Gram.Forth
open Ohcount.Ragel

/-- src/parsers/forth.rl:48
```
  forth_line_comment = '\\' @comment nonnewline*;
``` -/
def forth_line_comment : Rx := .seqs [.fin (.cls (Cls.chr 92)) .comment, .star (.cls (Common.nonnewline))]

/-- src/parsers/forth.rl:49-56
```
  forth_block_comment =
    '(' @comment (
      newline %{ entity = INTERNAL_NL; } %forth_ccallback
      |
      ws
      |
      (nonnewline - ws) @comment
    )* :>> ')';
``` -/
def forth_block_comment : Rx := .guard (.seqs [.fin (.cls (Cls.chr 40)) .comment, .star (.alts [.leave (.leave (Common.newline) (.setEnt .internalNl)) .cb, .cls (Common.ws), .fin (.cls (Cls.diff (Common.nonnewline) (Common.ws))) .comment])]) (.cls (Cls.chr 41))

/-- src/parsers/forth.rl:57
```
  forth_comment = forth_line_comment | forth_block_comment;
``` -/
def forth_comment : Rx := .alts [forth_line_comment, forth_block_comment]

/-- src/parsers/forth.rl:59
```
  forth_string = '"' @code ([^\r\n\f"])* '"';
``` -/
def forth_string : Rx := .seqs [.fin (.cls (Cls.chr 34)) .code, .star (.cls (Cls.neg (Cls.ranges [(10, 10), (12, 13), (34, 34)]))), .cls (Cls.chr 34)]

/-- src/parsers/forth.rl:61-67 with the cases of its callback (src/parsers/forth.rl:32-46).
```
  forth_line := |*
    spaces         ${ entity = FORTH_SPACE; } => forth_ccallback;
    forth_comment;
    forth_string;
    newline        ${ entity = NEWLINE;     } => forth_ccallback;
    ^space         ${ entity = FORTH_ANY;   } => forth_ccallback;
  *|;
``` -/
def forth_line : Scanner where
  pats := [
  (.all (Common.spaces) (.setEnt (.own 0)), .cb),
  (forth_comment, .none),
  (forth_string, .none),
  (.all (Common.newline) (.setEnt .newline), .cb),
  (.all (.cls (Cls.neg (Common.space))) (.setEnt (.own 3)), .cb)]
  sw := [((.own 0), .ls), ((.own 3), .code), (.internalNl, .internalNewline), (.newline, .newline)]

/-- src/parsers/forth.rl:75
```
  forth_line_comment_entity = '\\' nonnewline*;
``` -/
def forth_line_comment_entity : Rx := .seqs [.cls (Cls.chr 92), .star (.cls (Common.nonnewline))]

/-- src/parsers/forth.rl:76
```
  forth_block_comment_entity = '(' any* :>> ')';
``` -/
def forth_block_comment_entity : Rx := .guard (.seqs [.cls (Cls.chr 40), .star (.cls (Cls.any))]) (.cls (Cls.chr 41))

/-- src/parsers/forth.rl:77
```
  forth_comment_entity = forth_line_comment_entity | forth_block_comment_entity;
``` -/
def forth_comment_entity : Rx := .alts [forth_line_comment_entity, forth_block_comment_entity]

/-- src/parsers/forth.rl:79-84.
```
  forth_entity := |*
    space+               ${ entity = FORTH_SPACE;   } => forth_ecallback;
    forth_comment_entity ${ entity = FORTH_COMMENT; } => forth_ecallback;
    # TODO:
    ^space;
  *|;
``` -/
def forth_entity : Scanner where
  pats := [
  (.all (.plus (.cls (Common.space))) (.setEnt (.own 0)), .ecb),
  (.all (forth_comment_entity) (.setEnt (.own 1)), .ecb),
  (.cls (Cls.neg (Common.space)), .none)]
  sw := []

end Ohcount.Gram.Forth

namespace Ohcount.Gram.Fortranfixed
open Ohcount.Ragel

/-- src/parsers/fortranfixed.rl:47
```
  ffixed_comment = 'C' @comment nonnewline*;
``` -/
def ffixed_comment : Rx := .seqs [.fin (.cls (Cls.chr 67)) .comment, .star (.cls (Common.nonnewline))]

/-- src/parsers/fortranfixed.rl:49
```
  ffixed_sq_str = '\'' @code nonnewline* '\'';
``` -/
def ffixed_sq_str : Rx := .seqs [.fin (.cls (Cls.chr 39)) .code, .star (.cls (Common.nonnewline)), .cls (Cls.chr 39)]

/-- src/parsers/fortranfixed.rl:50
```
  ffixed_dq_str = '"' @code nonnewline* '"';
``` -/
def ffixed_dq_str : Rx := .seqs [.fin (.cls (Cls.chr 34)) .code, .star (.cls (Common.nonnewline)), .cls (Cls.chr 34)]

/-- src/parsers/fortranfixed.rl:51
```
  ffixed_string = ffixed_sq_str | ffixed_dq_str;
``` -/
def ffixed_string : Rx := .alts [ffixed_sq_str, ffixed_dq_str]

/-- src/parsers/fortranfixed.rl:53-59 with the cases of its callback (src/parsers/fortranfixed.rl:31-45).
```
  ffixed_line := |*
    spaces          ${ entity = FFIXED_SPACE; } => ffixed_ccallback;
    ffixed_comment;
    ffixed_string;
    newline         ${ entity = NEWLINE;      } => ffixed_ccallback;
    ^space          ${ entity = FFIXED_ANY;   } => ffixed_ccallback;
  *|;
``` -/
def ffixed_line : Scanner where
  pats := [
  (.all (Common.spaces) (.setEnt (.own 0)), .cb),
  (ffixed_comment, .none),
  (ffixed_string, .none),
  (.all (Common.newline) (.setEnt .newline), .cb),
  (.all (.cls (Cls.neg (Common.space))) (.setEnt (.own 3)), .cb)]
  sw := [((.own 0), .ls), ((.own 3), .code), (.internalNl, .internalNewline), (.newline, .newline)]

/-- src/parsers/fortranfixed.rl:68
```
  ffixed_comment_entity = 'C' nonnewline*;
``` -/
def ffixed_comment_entity : Rx := .seqs [.cls (Cls.chr 67), .star (.cls (Common.nonnewline))]

/-- src/parsers/fortranfixed.rl:70-75.
```
  ffixed_entity := |*
    space+                ${ entity = FFIXED_SPACE;   } => ffixed_ecallback;
    ffixed_comment_entity ${ entity = FFIXED_COMMENT; } => ffixed_ecallback;
    # TODO:
    ^space;
  *|;
``` -/
def ffixed_entity : Scanner where
  pats := [
  (.all (.plus (.cls (Common.space))) (.setEnt (.own 0)), .ecb),
  (.all (ffixed_comment_entity) (.setEnt (.own 1)), .ecb),
  (.cls (Cls.neg (Common.space)), .none)]
  sw := []

end Ohcount.Gram.Fortranfixed

namespace Ohcount.Gram.Fortranfree
open Ohcount.Ragel

/-- src/parsers/fortranfree.rl:47
```
  ffree_comment = '!' @comment nonnewline*;
``` -/
def ffree_comment : Rx := .seqs [.fin (.cls (Cls.chr 33)) .comment, .star (.cls (Common.nonnewline))]

/-- src/parsers/fortranfree.rl:49-56
```
  ffree_sq_str =
    '\'' @code (
      newline %{ entity = INTERNAL_NL; } %ffree_ccallback
      |
      ws
      |
      [^\r\n\f\t '] @code
    )* '\'';
``` -/
def ffree_sq_str : Rx := .seqs [.fin (.cls (Cls.chr 39)) .code, .star (.alts [.leave (.leave (Common.newline) (.setEnt .internalNl)) .cb, .cls (Common.ws), .fin (.cls (Cls.neg (Cls.ranges [(9, 10), (12, 13), (32, 32), (39, 39)]))) .code]), .cls (Cls.chr 39)]

/-- src/parsers/fortranfree.rl:57-64
```
  ffree_dq_str =
    '"' @code (
      newline %{ entity = INTERNAL_NL; } %ffree_ccallback
      |
      ws
      |
      [^\r\n\f\t "] @code
    )* '"';
``` -/
def ffree_dq_str : Rx := .seqs [.fin (.cls (Cls.chr 34)) .code, .star (.alts [.leave (.leave (Common.newline) (.setEnt .internalNl)) .cb, .cls (Common.ws), .fin (.cls (Cls.neg (Cls.ranges [(9, 10), (12, 13), (32, 32), (34, 34)]))) .code]), .cls (Cls.chr 34)]

/-- src/parsers/fortranfree.rl:65
```
  ffree_string = ffree_sq_str | ffree_dq_str;
``` -/
def ffree_string : Rx := .alts [ffree_sq_str, ffree_dq_str]

/-- src/parsers/fortranfree.rl:67-73 with the cases of its callback (src/parsers/fortranfree.rl:31-45).
```
  ffree_line := |*
    spaces         ${ entity = FFREE_SPACE; } => ffree_ccallback;
    ffree_comment;
    ffree_string;
    newline        ${ entity = NEWLINE;     } => ffree_ccallback;
    ^space         ${ entity = FFREE_ANY;   } => ffree_ccallback;
  *|;
``` -/
def ffree_line : Scanner where
  pats := [
  (.all (Common.spaces) (.setEnt (.own 0)), .cb),
  (ffree_comment, .none),
  (ffree_string, .none),
  (.all (Common.newline) (.setEnt .newline), .cb),
  (.all (.cls (Cls.neg (Common.space))) (.setEnt (.own 3)), .cb)]
  sw := [((.own 0), .ls), ((.own 3), .code), (.internalNl, .internalNewline), (.newline, .newline)]

/-- src/parsers/fortranfree.rl:82
```
  ffree_comment_entity = '!' nonnewline*;
``` -/
def ffree_comment_entity : Rx := .seqs [.cls (Cls.chr 33), .star (.cls (Common.nonnewline))]

/-- src/parsers/fortranfree.rl:84-89.
```
  ffree_entity := |*
    space+               ${ entity = FFREE_SPACE;   } => ffree_ecallback;
    ffree_comment_entity ${ entity = FFREE_COMMENT; } => ffree_ecallback;
    # TODO:
    ^space;
  *|;
``` -/
def ffree_entity : Scanner where
  pats := [
  (.all (.plus (.cls (Common.space))) (.setEnt (.own 0)), .ecb),
  (.all (ffree_comment_entity) (.setEnt (.own 1)), .ecb),
  (.cls (Cls.neg (Common.space)), .none)]
  sw := []

end Ohcount.Gram.Fortranfree

namespace Ohcount.Gram.Fsharp
open Ohcount.Ragel

/-- src/parsers/fsharp.rl:50-57
```
  fsharp_line_comment =
    '//' @comment (
      escaped_newline %{ entity = INTERNAL_NL; } %fsharp_ccallback
      |
      ws
      |
      (nonnewline - ws) @comment
    )*;
``` -/
def fsharp_line_comment : Rx := .seqs [.fin (.lit [47, 47]) .comment, .star (.alts [.leave (.leave (Common.escaped_newline) (.setEnt .internalNl)) .cb, .cls (Common.ws), .fin (.cls (Cls.diff (Common.nonnewline) (Common.ws))) .comment])]

/-- src/parsers/fsharp.rl:58-65
```
  fsharp_block_comment =
    '(*' @comment (
      newline %{ entity = INTERNAL_NL; } %fsharp_ccallback
      |
      ws
      |
      (nonnewline - ws) @comment
    )* :>> '*)';
``` -/
def fsharp_block_comment : Rx := .guard (.seqs [.fin (.lit [40, 42]) .comment, .star (.alts [.leave (.leave (Common.newline) (.setEnt .internalNl)) .cb, .cls (Common.ws), .fin (.cls (Cls.diff (Common.nonnewline) (Common.ws))) .comment])]) (.lit [42, 41])

/-- src/parsers/fsharp.rl:66
```
  fsharp_comment = fsharp_line_comment | fsharp_block_comment;
``` -/
def fsharp_comment : Rx := .alts [fsharp_line_comment, fsharp_block_comment]

/-- src/parsers/fsharp.rl:68-77
```
  fsharp_sq_str =
    '\'' @code (
      escaped_newline %{ entity = INTERNAL_NL; } %fsharp_ccallback
      |
      ws
      |
      [^\t '\\] @code
      |
      '\\' nonnewline @code
    )* '\'';
``` -/
def fsharp_sq_str : Rx := .seqs [.fin (.cls (Cls.chr 39)) .code, .star (.alts [.leave (.leave (Common.escaped_newline) (.setEnt .internalNl)) .cb, .cls (Common.ws), .fin (.cls (Cls.neg (Cls.chars [9, 32, 39, 92]))) .code, .seqs [.cls (Cls.chr 92), .fin (.cls (Common.nonnewline)) .code]]), .cls (Cls.chr 39)]

/-- src/parsers/fsharp.rl:78-87
```
  fsharp_dq_str =
    '"' @code (
      escaped_newline %{ entity = INTERNAL_NL; } %fsharp_ccallback
      |
      ws
      |
      [^\t "\\] @code
      |
      '\\' nonnewline @code
    )* '"';
``` -/
def fsharp_dq_str : Rx := .seqs [.fin (.cls (Cls.chr 34)) .code, .star (.alts [.leave (.leave (Common.escaped_newline) (.setEnt .internalNl)) .cb, .cls (Common.ws), .fin (.cls (Cls.neg (Cls.chars [9, 32, 34, 92]))) .code, .seqs [.cls (Cls.chr 92), .fin (.cls (Common.nonnewline)) .code]]), .cls (Cls.chr 34)]

/-- src/parsers/fsharp.rl:88
```
  fsharp_string = fsharp_sq_str | fsharp_dq_str;
``` -/
def fsharp_string : Rx := .alts [fsharp_sq_str, fsharp_dq_str]

/-- src/parsers/fsharp.rl:90-96 with the cases of its callback (src/parsers/fsharp.rl:34-48).
```
  fsharp_line := |*
    spaces    ${ entity = FSHARP_SPACE; } => fsharp_ccallback;
    fsharp_comment;
    fsharp_string;
    newline   ${ entity = NEWLINE; } => fsharp_ccallback;
    ^space    ${ entity = FSHARP_ANY;   } => fsharp_ccallback;
  *|;
``` -/
def fsharp_line : Scanner where
  pats := [
  (.all (Common.spaces) (.setEnt (.own 0)), .cb),
  (fsharp_comment, .none),
  (fsharp_string, .none),
  (.all (Common.newline) (.setEnt .newline), .cb),
  (.all (.cls (Cls.neg (Common.space))) (.setEnt (.own 8)), .cb)]
  sw := [((.own 0), .ls), ((.own 8), .code), (.internalNl, .internalNewline), (.newline, .newline)]

/-- src/parsers/fsharp.rl:104
```
  fsharp_line_comment_entity = '//' (escaped_newline | nonnewline)*;
``` -/
def fsharp_line_comment_entity : Rx := .seqs [.lit [47, 47], .star (.alts [Common.escaped_newline, .cls (Common.nonnewline)])]

/-- src/parsers/fsharp.rl:105
```
  fsharp_block_comment_entity = '(*' any* :>> '*)';
``` -/
def fsharp_block_comment_entity : Rx := .guard (.seqs [.lit [40, 42], .star (.cls (Cls.any))]) (.lit [42, 41])

/-- src/parsers/fsharp.rl:106
```
  fsharp_comment_entity = fsharp_line_comment_entity | fsharp_block_comment_entity;
``` -/
def fsharp_comment_entity : Rx := .alts [fsharp_line_comment_entity, fsharp_block_comment_entity]

/-- src/parsers/fsharp.rl:108
```
  fsharp_string_entity = sq_str_with_escapes | dq_str_with_escapes;
``` -/
def fsharp_string_entity : Rx := .alts [Common.sq_str_with_escapes, Common.dq_str_with_escapes]

/-- src/parsers/fsharp.rl:110
```
  fsharp_number_entity = float | integer;
``` -/
def fsharp_number_entity : Rx := .alts [Common.float, Common.integer]

/-- src/parsers/fsharp.rl:112-115
```
  fsharp_preproc_word =
    'define' | 'elif' | 'else' | 'endif' | 'error' | 'if' | 'ifdef' |
    'ifndef' | 'import' | 'include' | 'line' | 'pragma' | 'undef' |
    'using' | 'warning';
``` -/
def fsharp_preproc_word : Rx := .alts [.lit [100, 101, 102, 105, 110, 101], .lit [101, 108, 105, 102], .lit [101, 108, 115, 101], .lit [101, 110, 100, 105, 102], .lit [101, 114, 114, 111, 114], .lit [105, 102], .lit [105, 102, 100, 101, 102], .lit [105, 102, 110, 100, 101, 102], .lit [105, 109, 112, 111, 114, 116], .lit [105, 110, 99, 108, 117, 100, 101], .lit [108, 105, 110, 101], .lit [112, 114, 97, 103, 109, 97], .lit [117, 110, 100, 101, 102], .lit [117, 115, 105, 110, 103], .lit [119, 97, 114, 110, 105, 110, 103]]

/-- src/parsers/fsharp.rl:118-120
```
  fsharp_preproc_entity =
    '#' space* (fsharp_block_comment_entity space*)?
      fsharp_preproc_word (escaped_newline | nonnewline)*;
``` -/
def fsharp_preproc_entity : Rx := .seqs [.cls (Cls.chr 35), .star (.cls (Common.space)), .opt (.seqs [fsharp_block_comment_entity, .star (.cls (Common.space))]), fsharp_preproc_word, .star (.alts [Common.escaped_newline, .cls (Common.nonnewline)])]

/-- src/parsers/fsharp.rl:122
```
  fsharp_identifier_entity = (alpha | '_') (alnum | '_')*;
``` -/
def fsharp_identifier_entity : Rx := .seqs [.cls (Cls.union (Common.alpha) (Cls.chr 95)), .star (.cls (Cls.union (Common.alnum) (Cls.chr 95)))]

/-- src/parsers/fsharp.rl:124-136
```
  fsharp_keyword_entity =
    'and' | 'and_eq' | 'asm' | 'auto' | 'bitand' | 'bitor' | 'bool' |
    'break' | 'case' | 'catch' | 'char' | 'class' | 'compl' | 'const' |
    'const_cast' | 'continue' | 'default' | 'delete' | 'do' | 'double' |
    'dynamic_cast' | 'else' | 'enum' | 'explicit' | 'export' | 'extern' |
    'false' | 'float' | 'for' | 'friend' | 'goto' | 'if' | 'inline' | 'int' |
    'long' | 'mutable' | 'namespace' | 'new' | 'not' | 'not_eq' |
    'operator' | 'or' | 'or_eq' | 'private' | 'protected' | 'public' |
    'register' | 'reinterpret_cast' | 'return' | 'short' | 'signed' |
    'sizeof' | 'static' | 'static_cast' | 'struct' | 'switch' |
    'template' | 'this' | 'throw' | 'true' | 'try' | 'typedef' | 'typeid' |
    'typename' | 'union' | 'unsigned' | 'using' | 'virtual' | 'void' |
    'volatile' | 'wchar_t' | 'while' | 'xor' | 'xor_eq';
``` -/
def fsharp_keyword_entity : Rx := .alts [.lit [97, 110, 100], .lit [97, 110, 100, 95, 101, 113], .lit [97, 115, 109], .lit [97, 117, 116, 111], .lit [98, 105, 116, 97, 110, 100], .lit [98, 105, 116, 111, 114], .lit [98, 111, 111, 108], .lit [98, 114, 101, 97, 107], .lit [99, 97, 115, 101], .lit [99, 97, 116, 99, 104], .lit [99, 104, 97, 114], .lit [99, 108, 97, 115, 115], .lit [99, 111, 109, 112, 108], .lit [99, 111, 110, 115, 116], .lit [99, 111, 110, 115, 116, 95, 99, 97, 115, 116], .lit [99, 111, 110, 116, 105, 110, 117, 101], .lit [100, 101, 102, 97, 117, 108, 116], .lit [100, 101, 108, 101, 116, 101], .lit [100, 111], .lit [100, 111, 117, 98, 108, 101], .lit [100, 121, 110, 97, 109, 105, 99, 95, 99, 97, 115, 116], .lit [101, 108, 115, 101], .lit [101, 110, 117, 109], .lit [101, 120, 112, 108, 105, 99, 105, 116], .lit [101, 120, 112, 111, 114, 116], .lit [101, 120, 116, 101, 114, 110], .lit [102, 97, 108, 115, 101], .lit [102, 108, 111, 97, 116], .lit [102, 111, 114], .lit [102, 114, 105, 101, 110, 100], .lit [103, 111, 116, 111], .lit [105, 102], .lit [105, 110, 108, 105, 110, 101], .lit [105, 110, 116], .lit [108, 111, 110, 103], .lit [109, 117, 116, 97, 98, 108, 101], .lit [110, 97, 109, 101, 115, 112, 97, 99, 101], .lit [110, 101, 119], .lit [110, 111, 116], .lit [110, 111, 116, 95, 101, 113], .lit [111, 112, 101, 114, 97, 116, 111, 114], .lit [111, 114], .lit [111, 114, 95, 101, 113], .lit [112, 114, 105, 118, 97, 116, 101], .lit [112, 114, 111, 116, 101, 99, 116, 101, 100], .lit [112, 117, 98, 108, 105, 99], .lit [114, 101, 103, 105, 115, 116, 101, 114], .lit [114, 101, 105, 110, 116, 101, 114, 112, 114, 101, 116, 95, 99, 97, 115, 116], .lit [114, 101, 116, 117, 114, 110], .lit [115, 104, 111, 114, 116], .lit [115, 105, 103, 110, 101, 100], .lit [115, 105, 122, 101, 111, 102], .lit [115, 116, 97, 116, 105, 99], .lit [115, 116, 97, 116, 105, 99, 95, 99, 97, 115, 116], .lit [115, 116, 114, 117, 99, 116], .lit [115, 119, 105, 116, 99, 104], .lit [116, 101, 109, 112, 108, 97, 116, 101], .lit [116, 104, 105, 115], .lit [116, 104, 114, 111, 119], .lit [116, 114, 117, 101], .lit [116, 114, 121], .lit [116, 121, 112, 101, 100, 101, 102], .lit [116, 121, 112, 101, 105, 100], .lit [116, 121, 112, 101, 110, 97, 109, 101], .lit [117, 110, 105, 111, 110], .lit [117, 110, 115, 105, 103, 110, 101, 100], .lit [117, 115, 105, 110, 103], .lit [118, 105, 114, 116, 117, 97, 108], .lit [118, 111, 105, 100], .lit [118, 111, 108, 97, 116, 105, 108, 101], .lit [119, 99, 104, 97, 114, 95, 116], .lit [119, 104, 105, 108, 101], .lit [120, 111, 114], .lit [120, 111, 114, 95, 101, 113]]

/-- src/parsers/fsharp.rl:138
```
  fsharp_operator_entity = [+\- /*%<>!=^&|?~:;.,()\[\]{}];
``` -/
def fsharp_operator_entity : Cls := Cls.ranges [(33, 33), (37, 38), (40, 47), (58, 63), (91, 91), (93, 94), (123, 126)]

/-- src/parsers/fsharp.rl:140-150.
```
  fsharp_entity := |*
    space+              ${ entity = FSHARP_SPACE;      } => fsharp_ecallback;
    fsharp_comment_entity    ${ entity = FSHARP_COMMENT;    } => fsharp_ecallback;
    fsharp_string_entity     ${ entity = FSHARP_STRING;     } => fsharp_ecallback;
    fsharp_number_entity     ${ entity = FSHARP_NUMBER;     } => fsharp_ecallback;
    fsharp_preproc_entity    ${ entity = FSHARP_PREPROC;    } => fsharp_ecallback;
    fsharp_identifier_entity ${ entity = FSHARP_IDENTIFIER; } => fsharp_ecallback;
    fsharp_keyword_entity    ${ entity = FSHARP_KEYWORD;    } => fsharp_ecallback;
    fsharp_operator_entity   ${ entity = FSHARP_OPERATOR;   } => fsharp_ecallback;
    ^(space | digit)    ${ entity = FSHARP_ANY;        } => fsharp_ecallback;
  *|;
``` -/
def fsharp_entity : Scanner where
  pats := [
  (.all (.plus (.cls (Common.space))) (.setEnt (.own 0)), .ecb),
  (.all (fsharp_comment_entity) (.setEnt (.own 1)), .ecb),
  (.all (fsharp_string_entity) (.setEnt (.own 2)), .ecb),
  (.all (fsharp_number_entity) (.setEnt (.own 3)), .ecb),
  (.all (fsharp_preproc_entity) (.setEnt (.own 4)), .ecb),
  (.all (fsharp_identifier_entity) (.setEnt (.own 6)), .ecb),
  (.all (fsharp_keyword_entity) (.setEnt (.own 5)), .ecb),
  (.all (.cls (fsharp_operator_entity)) (.setEnt (.own 7)), .ecb),
  (.all (.cls (Cls.neg (Cls.union (Common.space) (Common.digit)))) (.setEnt (.own 8)), .ecb)]
  sw := []

end Ohcount.Gram.Fsharp

