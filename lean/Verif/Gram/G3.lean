import Verif.Gram.Common

/-! Scanners transcribed from src/parsers/: coffeescript.rl, coq.rl, crystal.rl, css.rl, d.rl, dart.rl, dcl.rl, dylan.rl, ebuild.rl. Generated by tools/gen_grammars.py. -/

namespace Ohcount.Gram.Coffeescript
open Ohcount.Ragel

/-- src/parsers/coffeescript.rl:127
```
  coffeescript_line_comment_entity = ('#') nonnewline*;
``` -/
def coffeescript_line_comment_entity : Rx := .seqs [.cls (Cls.chr 35), .star (.cls (Common.nonnewline))]

/-- src/parsers/coffeescript.rl:128
```
  coffeescript_block_comment_entity = '###' any* :>> '###';
``` -/
def coffeescript_block_comment_entity : Rx := .guard (.seqs [.lit [35, 35, 35], .star (.cls (Cls.any))]) (.lit [35, 35, 35])

/-- src/parsers/coffeescript.rl:129-130
```
  coffeescript_comment_entity = coffeescript_line_comment_entity |
    coffeescript_block_comment_entity;
``` -/
def coffeescript_comment_entity : Rx := .alts [coffeescript_line_comment_entity, coffeescript_block_comment_entity]

/-- src/parsers/coffeescript.rl:132-137.
```
  coffeescript_entity := |*
    space+                ${ entity = COFFEESCRIPT_SPACE;   } => coffeescript_ecallback;
    coffeescript_comment_entity ${ entity = COFFEESCRIPT_COMMENT; } => coffeescript_ecallback;
    # TODO:
    ^space;
  *|;
``` -/
def coffeescript_entity : Scanner where
  pats := [
  (.all (.plus (.cls (Common.space))) (.setEnt (.own 0)), .ecb),
  (.all (coffeescript_comment_entity) (.setEnt (.own 1)), .ecb),
  (.cls (Cls.neg (Common.space)), .none)]
  sw := []

end Ohcount.Gram.Coffeescript

namespace Ohcount.Gram.Coq
open Ohcount.Ragel

/-- src/parsers/coq.rl:49-60
```
  coq_nested_block_comment =
    '(*' >coq_comment_nc_res @comment (
      newline %{ entity = INTERNAL_NL; } %coq_ccallback
      |
      ws
      |
      '(*' @coq_comment_nc_inc @comment
      |
      '*)' @coq_comment_nc_dec @comment
      |
      (nonnewline - ws) @comment
    )* :>> ('*)' when { nest_count == 0 }) @comment;
``` -/
def coq_nested_block_comment : Rx := .guard (.seqs [.fin (.ent (.lit [40, 42]) .nestRes) .comment, .star (.alts [.leave (.leave (Common.newline) (.setEnt .internalNl)) .cb, .cls (Common.ws), .fin (.fin (.lit [40, 42]) .nestInc) .comment, .fin (.fin (.lit [42, 41]) .nestDec) .comment, .fin (.cls (Cls.diff (Common.nonnewline) (Common.ws))) .comment])]) (.fin (.cond (.lit [42, 41]) .nestZero) .comment)

/-- src/parsers/coq.rl:62
```
  coq_comment = coq_nested_block_comment;
``` -/
def coq_comment : Rx := coq_nested_block_comment

/-- src/parsers/coq.rl:64-71
```
  coq_string =
    '"' @code (
      newline %{ entity = INTERNAL_NL; } %coq_ccallback
      |
      ws
      |
      [^"] @code
    )* '"';
``` -/
def coq_string : Rx := .seqs [.fin (.cls (Cls.chr 34)) .code, .star (.alts [.leave (.leave (Common.newline) (.setEnt .internalNl)) .cb, .cls (Common.ws), .fin (.cls (Cls.neg (Cls.chr 34))) .code]), .cls (Cls.chr 34)]

/-- src/parsers/coq.rl:73-79 with the cases of its callback (src/parsers/coq.rl:29-43).
```
  coq_line := |*
    spaces          ${ entity = COQ_SPACE; } => coq_ccallback;
    coq_comment;
    coq_string;
    newline         ${ entity = NEWLINE;   } => coq_ccallback;
    ^space          ${ entity = COQ_ANY;   } => coq_ccallback;
  *|;
``` -/
def coq_line : Scanner where
  pats := [
  (.all (Common.spaces) (.setEnt (.own 0)), .cb),
  (coq_comment, .none),
  (coq_string, .none),
  (.all (Common.newline) (.setEnt .newline), .cb),
  (.all (.cls (Cls.neg (Common.space))) (.setEnt (.own 3)), .cb)]
  sw := [((.own 0), .ls), ((.own 3), .code), (.internalNl, .internalNewline), (.newline, .newline)]

/-- src/parsers/coq.rl:87-93
```
  coq_comment_entity = '(*' >coq_comment_nc_res (
    '(*' @coq_comment_nc_inc
    |
    '*)' @coq_comment_nc_dec
    |
    any
  )* :>> ('*)' when { nest_count == 0 });
``` -/
def coq_comment_entity : Rx := .guard (.seqs [.ent (.lit [40, 42]) .nestRes, .star (.alts [.fin (.lit [40, 42]) .nestInc, .fin (.lit [42, 41]) .nestDec, .cls (Cls.any)])]) (.cond (.lit [42, 41]) .nestZero)

/-- src/parsers/coq.rl:95-100.
```
  coq_entity := |*
    space+             ${ entity = COQ_SPACE;   } => coq_ecallback;
    coq_comment_entity ${ entity = COQ_COMMENT; } => coq_ecallback;
    # TODO:
    ^space;
  *|;
``` -/
def coq_entity : Scanner where
  pats := [
  (.all (.plus (.cls (Common.space))) (.setEnt (.own 0)), .ecb),
  (.all (coq_comment_entity) (.setEnt (.own 1)), .ecb),
  (.cls (Cls.neg (Common.space)), .none)]
  sw := []

end Ohcount.Gram.Coq

namespace Ohcount.Gram.Crystal
open Ohcount.Ragel

/-- src/parsers/crystal.rl:47
```
  crystal_line_comment = '#' @comment nonnewline*;
``` -/
def crystal_line_comment : Rx := .seqs [.fin (.cls (Cls.chr 35)) .comment, .star (.cls (Common.nonnewline))]

/-- src/parsers/crystal.rl:50-57
```
  crystal_block_comment =
    '=begin' @enqueue @comment (
      newline %{ entity = INTERNAL_NL; } %crystal_ccallback
      |
      ws
      |
      (nonnewline - ws) @comment
    )* :>> '=end' @commit;
``` -/
def crystal_block_comment : Rx := .guard (.seqs [.fin (.fin (.lit [61, 98, 101, 103, 105, 110]) .enqueue) .comment, .star (.alts [.leave (.leave (Common.newline) (.setEnt .internalNl)) .cb, .cls (Common.ws), .fin (.cls (Cls.diff (Common.nonnewline) (Common.ws))) .comment])]) (.fin (.lit [61, 101, 110, 100]) .commit)

/-- src/parsers/crystal.rl:58
```
  crystal_comment = crystal_line_comment | crystal_block_comment;
``` -/
def crystal_comment : Rx := .alts [crystal_line_comment, crystal_block_comment]

/-- src/parsers/crystal.rl:60-69
```
  crystal_dq_str =
    '"' @enqueue @code (
      newline %{ entity = INTERNAL_NL; } %crystal_ccallback
      |
      ws
      |
      [^\r\n\f\t "\\] @code
      |
      '\\' nonnewline @code
    )* '"' @commit @code;
``` -/
def crystal_dq_str : Rx := .seqs [.fin (.fin (.cls (Cls.chr 34)) .enqueue) .code, .star (.alts [.leave (.leave (Common.newline) (.setEnt .internalNl)) .cb, .cls (Common.ws), .fin (.cls (Cls.neg (Cls.ranges [(9, 10), (12, 13), (32, 32), (34, 34), (92, 92)]))) .code, .seqs [.cls (Cls.chr 92), .fin (.cls (Common.nonnewline)) .code]]), .fin (.fin (.cls (Cls.chr 34)) .commit) .code]

/-- src/parsers/crystal.rl:79-88
```
  crystal_lit_str =
    '%' [qQ]? [(\[{] @enqueue @code (
      newline %{ entity = INTERNAL_NL; } %crystal_ccallback
      |
      ws
      |
      [^\r\n\f\t )\]}\\] @code
      |
      '\\' nonnewline @code
    )* [)\]}] @commit @code;
``` -/
def crystal_lit_str : Rx := .seqs [.cls (Cls.chr 37), .opt (.cls (Cls.chars [81, 113])), .fin (.fin (.cls (Cls.chars [40, 91, 123])) .enqueue) .code, .star (.alts [.leave (.leave (Common.newline) (.setEnt .internalNl)) .cb, .cls (Common.ws), .fin (.cls (Cls.neg (Cls.ranges [(9, 10), (12, 13), (32, 32), (41, 41), (92, 93), (125, 125)]))) .code, .seqs [.cls (Cls.chr 92), .fin (.cls (Common.nonnewline)) .code]]), .fin (.fin (.cls (Cls.chars [41, 93, 125])) .commit) .code]

/-- src/parsers/crystal.rl:89-98
```
  crystal_cmd_str =
    '`' @enqueue @code (
      newline %{ entity = INTERNAL_NL; } %crystal_ccallback
      |
      ws
      |
      [^\r\n\f\t `\\] @code
      |
      '\\' nonnewline @code
    )* '`' @commit @code;
``` -/
def crystal_cmd_str : Rx := .seqs [.fin (.fin (.cls (Cls.chr 96)) .enqueue) .code, .star (.alts [.leave (.leave (Common.newline) (.setEnt .internalNl)) .cb, .cls (Common.ws), .fin (.cls (Cls.neg (Cls.ranges [(9, 10), (12, 13), (32, 32), (92, 92), (96, 96)]))) .code, .seqs [.cls (Cls.chr 92), .fin (.cls (Common.nonnewline)) .code]]), .fin (.fin (.cls (Cls.chr 96)) .commit) .code]

/-- src/parsers/crystal.rl:99
```
  crystal_regex = '/' ([^\r\n\f/\\] | '\\' nonnewline)* '/' @code;
``` -/
def crystal_regex : Rx := .seqs [.cls (Cls.chr 47), .star (.alts [.cls (Cls.neg (Cls.ranges [(10, 10), (12, 13), (47, 47), (92, 92)])), .seqs [.cls (Cls.chr 92), .cls (Common.nonnewline)]]), .fin (.cls (Cls.chr 47)) .code]

/-- src/parsers/crystal.rl:102-111
```
  crystal_lit_other =
    '%' [wrx] [(\[{] @enqueue @code (
      newline %{ entity = INTERNAL_NL; } %crystal_ccallback
      |
      ws
      |
      [^\r\n\f\t )\]}\\] @code
      |
      '\\' nonnewline @code
    )* [)\]}] @commit @code;
``` -/
def crystal_lit_other : Rx := .seqs [.cls (Cls.chr 37), .cls (Cls.ranges [(114, 114), (119, 120)]), .fin (.fin (.cls (Cls.chars [40, 91, 123])) .enqueue) .code, .star (.alts [.leave (.leave (Common.newline) (.setEnt .internalNl)) .cb, .cls (Common.ws), .fin (.cls (Cls.neg (Cls.ranges [(9, 10), (12, 13), (32, 32), (41, 41), (92, 93), (125, 125)]))) .code, .seqs [.cls (Cls.chr 92), .fin (.cls (Common.nonnewline)) .code]]), .fin (.fin (.cls (Cls.chars [41, 93, 125])) .commit) .code]

/-- src/parsers/crystal.rl:116-118
```
  crystal_string =
    crystal_dq_str | crystal_lit_str | crystal_cmd_str | crystal_regex |
    crystal_lit_other;
``` -/
def crystal_string : Rx := .alts [crystal_dq_str, crystal_lit_str, crystal_cmd_str, crystal_regex, crystal_lit_other]

/-- src/parsers/crystal.rl:120-126 with the cases of its callback (src/parsers/crystal.rl:31-45).
```
  crystal_line := |*
    spaces        ${ entity = CRYSTAL_SPACE; } => crystal_ccallback;
    crystal_comment;
    crystal_string;
    newline       ${ entity = NEWLINE;    } => crystal_ccallback;
    ^space        ${ entity = CRYSTAL_ANY;   } => crystal_ccallback;
  *|;
``` -/
def crystal_line : Scanner where
  pats := [
  (.all (Common.spaces) (.setEnt (.own 0)), .cb),
  (crystal_comment, .none),
  (crystal_string, .none),
  (.all (Common.newline) (.setEnt .newline), .cb),
  (.all (.cls (Cls.neg (Common.space))) (.setEnt (.own 3)), .cb)]
  sw := [((.own 0), .ls), ((.own 3), .code), (.internalNl, .internalNewline), (.newline, .newline)]

/-- src/parsers/crystal.rl:134
```
  crystal_line_comment_entity = '#' nonnewline*;
``` -/
def crystal_line_comment_entity : Rx := .seqs [.cls (Cls.chr 35), .star (.cls (Common.nonnewline))]

/-- src/parsers/crystal.rl:135-136
```
  crystal_block_comment_entity = ('=' when starts_line) 'begin'
    any* :>> (('=' when starts_line) 'end');
``` -/
def crystal_block_comment_entity : Rx := .guard (.seqs [.cond (.cls (Cls.chr 61)) .startsLine, .lit [98, 101, 103, 105, 110], .star (.cls (Cls.any))]) (.seqs [.cond (.cls (Cls.chr 61)) .startsLine, .lit [101, 110, 100]])

/-- src/parsers/crystal.rl:137
```
  crystal_comment_entity = crystal_line_comment_entity | crystal_block_comment_entity;
``` -/
def crystal_comment_entity : Rx := .alts [crystal_line_comment_entity, crystal_block_comment_entity]

/-- src/parsers/crystal.rl:139-144.
```
  crystal_entity := |*
    space+              ${ entity = CRYSTAL_SPACE;   } => crystal_ecallback;
    crystal_comment_entity ${ entity = CRYSTAL_COMMENT; } => crystal_ecallback;
    # TODO:
    ^space;
  *|;
``` -/
def crystal_entity : Scanner where
  pats := [
  (.all (.plus (.cls (Common.space))) (.setEnt (.own 0)), .ecb),
  (.all (crystal_comment_entity) (.setEnt (.own 1)), .ecb),
  (.cls (Cls.neg (Common.space)), .none)]
  sw := []

end Ohcount.Gram.Crystal

namespace Ohcount.Gram.Css
open Ohcount.Ragel

/-- src/parsers/css.rl:49-56
```
  css_comment =
    '/*' @comment (
      newline %{ entity = INTERNAL_NL; } %css_ccallback
      |
      ws
      |
      (nonnewline - ws) @comment
    )* :>> '*/';
``` -/
def css_comment : Rx := .guard (.seqs [.fin (.lit [47, 42]) .comment, .star (.alts [.leave (.leave (Common.newline) (.setEnt .internalNl)) .cb, .cls (Common.ws), .fin (.cls (Cls.diff (Common.nonnewline) (Common.ws))) .comment])]) (.lit [42, 47])

/-- src/parsers/css.rl:58-67
```
  css_sq_str =
    '\'' @code (
      newline %{ entity = INTERNAL_NL; } %css_ccallback
      |
      ws
      |
      [^\r\n\f\t '\\] @code
      |
      '\\' nonnewline @code
    )* '\'';
``` -/
def css_sq_str : Rx := .seqs [.fin (.cls (Cls.chr 39)) .code, .star (.alts [.leave (.leave (Common.newline) (.setEnt .internalNl)) .cb, .cls (Common.ws), .fin (.cls (Cls.neg (Cls.ranges [(9, 10), (12, 13), (32, 32), (39, 39), (92, 92)]))) .code, .seqs [.cls (Cls.chr 92), .fin (.cls (Common.nonnewline)) .code]]), .cls (Cls.chr 39)]

/-- src/parsers/css.rl:68-77
```
  css_dq_str =
    '"' @code (
      newline %{ entity = INTERNAL_NL; } %css_ccallback
      |
      ws
      |
      [^\r\n\f\t "\\] @code
      |
      '\\' nonnewline @code
    )* '"';
``` -/
def css_dq_str : Rx := .seqs [.fin (.cls (Cls.chr 34)) .code, .star (.alts [.leave (.leave (Common.newline) (.setEnt .internalNl)) .cb, .cls (Common.ws), .fin (.cls (Cls.neg (Cls.ranges [(9, 10), (12, 13), (32, 32), (34, 34), (92, 92)]))) .code, .seqs [.cls (Cls.chr 92), .fin (.cls (Common.nonnewline)) .code]]), .cls (Cls.chr 34)]

/-- src/parsers/css.rl:78
```
  css_string = css_sq_str | css_dq_str;
``` -/
def css_string : Rx := .alts [css_sq_str, css_dq_str]

/-- src/parsers/css.rl:80-86 with the cases of its callback (src/parsers/css.rl:33-47).
```
  css_line := |*
    spaces      ${ entity = CSS_SPACE; } => css_ccallback;
    css_comment;
    css_string;
    newline     ${ entity = NEWLINE;   } => css_ccallback;
    ^space      ${ entity = CSS_ANY;   } => css_ccallback;
  *|;
``` -/
def css_line : Scanner where
  pats := [
  (.all (Common.spaces) (.setEnt (.own 0)), .cb),
  (css_comment, .none),
  (css_string, .none),
  (.all (Common.newline) (.setEnt .newline), .cb),
  (.all (.cls (Cls.neg (Common.space))) (.setEnt (.own 9)), .cb)]
  sw := [((.own 0), .ls), ((.own 9), .code), (.internalNl, .internalNewline), (.newline, .newline)]

/-- src/parsers/css.rl:94
```
  css_comment_entity = '/*' any* :>> '*/';
``` -/
def css_comment_entity : Rx := .guard (.seqs [.lit [47, 42], .star (.cls (Cls.any))]) (.lit [42, 47])

/-- src/parsers/css.rl:96-101.
```
  css_entity := |*
    space+             ${ entity = CSS_SPACE;   } => css_ecallback;
    css_comment_entity ${ entity = CSS_COMMENT; } => css_ecallback;
    # TODO:
    ^space;
  *|;
``` -/
def css_entity : Scanner where
  pats := [
  (.all (.plus (.cls (Common.space))) (.setEnt (.own 0)), .ecb),
  (.all (css_comment_entity) (.setEnt (.own 1)), .ecb),
  (.cls (Cls.neg (Common.space)), .none)]
  sw := []

end Ohcount.Gram.Css

namespace Ohcount.Gram.D
open Ohcount.Ragel

/-- src/parsers/d.rl:51-58
```
  d_line_comment =
    '//' @comment (
      escaped_newline %{ entity = INTERNAL_NL; } %d_ccallback
      |
      ws
      |
      (nonnewline - ws) @comment
    )*;
``` -/
def d_line_comment : Rx := .seqs [.fin (.lit [47, 47]) .comment, .star (.alts [.leave (.leave (Common.escaped_newline) (.setEnt .internalNl)) .cb, .cls (Common.ws), .fin (.cls (Cls.diff (Common.nonnewline) (Common.ws))) .comment])]

/-- src/parsers/d.rl:59-66
```
  d_block_comment =
    '/*' @comment (
      newline %{ entity = INTERNAL_NL; } %d_ccallback
      |
      ws
      |
      (nonnewline - ws) @comment
    )* :>> '*/';
``` -/
def d_block_comment : Rx := .guard (.seqs [.fin (.lit [47, 42]) .comment, .star (.alts [.leave (.leave (Common.newline) (.setEnt .internalNl)) .cb, .cls (Common.ws), .fin (.cls (Cls.diff (Common.nonnewline) (Common.ws))) .comment])]) (.lit [42, 47])

/-- src/parsers/d.rl:67-78
```
  d_nested_comment =
    '/+' >d_comment_nc_res @comment (
      newline %{ entity = INTERNAL_NL; } %d_ccallback
      |
      ws
      |
      '/+' @d_comment_nc_inc @comment
      |
      '+/' @d_comment_nc_dec @comment
      |
      ^space @comment
    )* :>> ('+/' when { nest_count == 0 }) @comment;
``` -/
def d_nested_comment : Rx := .guard (.seqs [.fin (.ent (.lit [47, 43]) .nestRes) .comment, .star (.alts [.leave (.leave (Common.newline) (.setEnt .internalNl)) .cb, .cls (Common.ws), .fin (.fin (.lit [47, 43]) .nestInc) .comment, .fin (.fin (.lit [43, 47]) .nestDec) .comment, .fin (.cls (Cls.neg (Common.space))) .comment])]) (.fin (.cond (.lit [43, 47]) .nestZero) .comment)

/-- src/parsers/d.rl:79
```
  d_comment = d_line_comment | d_block_comment | d_nested_comment;
``` -/
def d_comment : Rx := .alts [d_line_comment, d_block_comment, d_nested_comment]

/-- src/parsers/d.rl:81-90
```
  d_sq_str =
    '\'' @code (
      escaped_newline %{ entity = INTERNAL_NL; } %d_ccallback
      |
      ws
      |
      [^\t '\\] @code
      |
      '\\' nonnewline @code
    )* '\'';
``` -/
def d_sq_str : Rx := .seqs [.fin (.cls (Cls.chr 39)) .code, .star (.alts [.leave (.leave (Common.escaped_newline) (.setEnt .internalNl)) .cb, .cls (Common.ws), .fin (.cls (Cls.neg (Cls.chars [9, 32, 39, 92]))) .code, .seqs [.cls (Cls.chr 92), .fin (.cls (Common.nonnewline)) .code]]), .cls (Cls.chr 39)]

/-- src/parsers/d.rl:91-100
```
  d_dq_str =
    '"' @code (
      escaped_newline %{ entity = INTERNAL_NL; } %d_ccallback
      |
      ws
      |
      [^\t "\\] @code
      |
      '\\' nonnewline @code
    )* '"';
``` -/
def d_dq_str : Rx := .seqs [.fin (.cls (Cls.chr 34)) .code, .star (.alts [.leave (.leave (Common.escaped_newline) (.setEnt .internalNl)) .cb, .cls (Common.ws), .fin (.cls (Cls.neg (Cls.chars [9, 32, 34, 92]))) .code, .seqs [.cls (Cls.chr 92), .fin (.cls (Common.nonnewline)) .code]]), .cls (Cls.chr 34)]

/-- src/parsers/d.rl:101-110
```
  d_bt_str =
    '`' @code (
      escaped_newline %{ entity = INTERNAL_NL; } %d_ccallback
      |
      ws
      |
      [^\t `\\] @code
      |
      '\\' nonnewline @code
    )* '`';
``` -/
def d_bt_str : Rx := .seqs [.fin (.cls (Cls.chr 96)) .code, .star (.alts [.leave (.leave (Common.escaped_newline) (.setEnt .internalNl)) .cb, .cls (Common.ws), .fin (.cls (Cls.neg (Cls.chars [9, 32, 92, 96]))) .code, .seqs [.cls (Cls.chr 92), .fin (.cls (Common.nonnewline)) .code]]), .cls (Cls.chr 96)]

/-- src/parsers/d.rl:111
```
  d_string = d_sq_str | d_dq_str | d_bt_str;
``` -/
def d_string : Rx := .alts [d_sq_str, d_dq_str, d_bt_str]

/-- src/parsers/d.rl:113-119 with the cases of its callback (src/parsers/d.rl:31-45).
```
  d_line := |*
    spaces    ${ entity = D_SPACE; } => d_ccallback;
    d_comment;
    d_string;
    newline   ${ entity = NEWLINE; } => d_ccallback;
    ^space    ${ entity = D_ANY;   } => d_ccallback;
  *|;
``` -/
def d_line : Scanner where
  pats := [
  (.all (Common.spaces) (.setEnt (.own 0)), .cb),
  (d_comment, .none),
  (d_string, .none),
  (.all (Common.newline) (.setEnt .newline), .cb),
  (.all (.cls (Cls.neg (Common.space))) (.setEnt (.own 3)), .cb)]
  sw := [((.own 0), .ls), ((.own 3), .code), (.internalNl, .internalNewline), (.newline, .newline)]

/-- src/parsers/d.rl:127
```
  d_line_comment_entity = '//' (escaped_newline | nonnewline)*;
``` -/
def d_line_comment_entity : Rx := .seqs [.lit [47, 47], .star (.alts [Common.escaped_newline, .cls (Common.nonnewline)])]

/-- src/parsers/d.rl:128
```
  d_block_comment_entity = '/*' any* :>> '*/';
``` -/
def d_block_comment_entity : Rx := .guard (.seqs [.lit [47, 42], .star (.cls (Cls.any))]) (.lit [42, 47])

/-- src/parsers/d.rl:129-135
```
  d_nested_comment_entity = '/+' >d_comment_nc_res (
    '/+' @d_comment_nc_inc
    |
    '+/' @d_comment_nc_dec
    |
    any
  )* :>> ('+/' when { nest_count == 0 });
``` -/
def d_nested_comment_entity : Rx := .guard (.seqs [.ent (.lit [47, 43]) .nestRes, .star (.alts [.fin (.lit [47, 43]) .nestInc, .fin (.lit [43, 47]) .nestDec, .cls (Cls.any)])]) (.cond (.lit [43, 47]) .nestZero)

/-- src/parsers/d.rl:136-137
```
  d_comment_entity = d_line_comment_entity | d_block_comment_entity |
    d_nested_comment_entity;
``` -/
def d_comment_entity : Rx := .alts [d_line_comment_entity, d_block_comment_entity, d_nested_comment_entity]

/-- src/parsers/d.rl:139-144.
```
  d_entity := |*
    space+           ${ entity = D_SPACE;   } => d_ecallback;
    d_comment_entity ${ entity = D_COMMENT; } => d_ecallback;
    # TODO:
    ^space;
  *|;
``` -/
def d_entity : Scanner where
  pats := [
  (.all (.plus (.cls (Common.space))) (.setEnt (.own 0)), .ecb),
  (.all (d_comment_entity) (.setEnt (.own 1)), .ecb),
  (.cls (Cls.neg (Common.space)), .none)]
  sw := []

end Ohcount.Gram.D

namespace Ohcount.Gram.Dart
open Ohcount.Ragel

/-- src/parsers/dart.rl:45-52
```
  dart_line_comment =
    '//' @comment (
      escaped_newline %{ entity = INTERNAL_NL; } %dart_ccallback
      |
      ws
      |
      (nonnewline - ws) @comment
    )*;
``` -/
def dart_line_comment : Rx := .seqs [.fin (.lit [47, 47]) .comment, .star (.alts [.leave (.leave (Common.escaped_newline) (.setEnt .internalNl)) .cb, .cls (Common.ws), .fin (.cls (Cls.diff (Common.nonnewline) (Common.ws))) .comment])]

/-- src/parsers/dart.rl:53-60
```
  dart_block_comment =
    '/*' @comment (
      newline %{ entity = INTERNAL_NL; } %dart_ccallback
      |
      ws
      |
      (nonnewline - ws) @comment
    )* :>> '*/';
``` -/
def dart_block_comment : Rx := .guard (.seqs [.fin (.lit [47, 42]) .comment, .star (.alts [.leave (.leave (Common.newline) (.setEnt .internalNl)) .cb, .cls (Common.ws), .fin (.cls (Cls.diff (Common.nonnewline) (Common.ws))) .comment])]) (.lit [42, 47])

/-- src/parsers/dart.rl:61
```
  dart_comment = dart_line_comment | dart_block_comment;
``` -/
def dart_comment : Rx := .alts [dart_line_comment, dart_block_comment]

/-- src/parsers/dart.rl:63-68 with the cases of its callback (src/parsers/dart.rl:29-43).
```
  dart_line := |*
    spaces    ${ entity = DART_SPACE; } => dart_ccallback;
    dart_comment;
    newline   ${ entity = NEWLINE; } => dart_ccallback;
    ^space    ${ entity = DART_ANY;   } => dart_ccallback;
  *|;
``` -/
def dart_line : Scanner where
  pats := [
  (.all (Common.spaces) (.setEnt (.own 0)), .cb),
  (dart_comment, .none),
  (.all (Common.newline) (.setEnt .newline), .cb),
  (.all (.cls (Cls.neg (Common.space))) (.setEnt (.own 2)), .cb)]
  sw := [((.own 0), .ls), ((.own 2), .code), (.internalNl, .internalNewline), (.newline, .newline)]

/-- src/parsers/dart.rl:77
```
  dart_line_comment_entity = '//' (escaped_newline | nonnewline)*;
``` -/
def dart_line_comment_entity : Rx := .seqs [.lit [47, 47], .star (.alts [Common.escaped_newline, .cls (Common.nonnewline)])]

/-- src/parsers/dart.rl:78
```
  dart_block_comment_entity = '/*' any* :>> '*/';
``` -/
def dart_block_comment_entity : Rx := .guard (.seqs [.lit [47, 42], .star (.cls (Cls.any))]) (.lit [42, 47])

/-- src/parsers/dart.rl:79
```
  dart_comment_entity = dart_line_comment_entity | dart_block_comment_entity;
``` -/
def dart_comment_entity : Rx := .alts [dart_line_comment_entity, dart_block_comment_entity]

/-- src/parsers/dart.rl:81-85.
```
  dart_entity := |*
    space+                 ${ entity = DART_SPACE;      } => dart_ecallback;
    dart_comment_entity    ${ entity = DART_COMMENT;    } => dart_ecallback;
    ^space;
  *|;
``` -/
def dart_entity : Scanner where
  pats := [
  (.all (.plus (.cls (Common.space))) (.setEnt (.own 0)), .ecb),
  (.all (dart_comment_entity) (.setEnt (.own 1)), .ecb),
  (.cls (Cls.neg (Common.space)), .none)]
  sw := []

end Ohcount.Gram.Dart

namespace Ohcount.Gram.Dcl
open Ohcount.Ragel

/-- src/parsers/dcl.rl:48
```
  dcl_comment = '!' @comment nonnewline*;
``` -/
def dcl_comment : Rx := .seqs [.fin (.cls (Cls.chr 33)) .comment, .star (.cls (Common.nonnewline))]

/-- src/parsers/dcl.rl:50
```
  dcl_string = '"' @code ([^\r\n\f"\\] | '\\' nonnewline)* '"';
``` -/
def dcl_string : Rx := .seqs [.fin (.cls (Cls.chr 34)) .code, .star (.alts [.cls (Cls.neg (Cls.ranges [(10, 10), (12, 13), (34, 34), (92, 92)])), .seqs [.cls (Cls.chr 92), .cls (Common.nonnewline)]]), .cls (Cls.chr 34)]

/-- src/parsers/dcl.rl:52-59 with the cases of its callback (src/parsers/dcl.rl:31-46).
```
  dcl_line := |*
    '$'            ${ entity = DCL_LINE_START; } => dcl_ccallback;
    spaces         ${ entity = DCL_SPACE;      } => dcl_ccallback;
    dcl_comment;
    dcl_string;
    newline        ${ entity = NEWLINE;        } => dcl_ccallback;
    ^(space | '$') ${ entity = DCL_ANY;        } => dcl_ccallback;
  *|;
``` -/
def dcl_line : Scanner where
  pats := [
  (.all (.cls (Cls.chr 36)) (.setEnt (.own 1)), .cb),
  (.all (Common.spaces) (.setEnt (.own 0)), .cb),
  (dcl_comment, .none),
  (dcl_string, .none),
  (.all (Common.newline) (.setEnt .newline), .cb),
  (.all (.cls (Cls.neg (Cls.union (Common.space) (Cls.chr 36)))) (.setEnt (.own 4)), .cb)]
  sw := [((.own 0), .ls), ((.own 1), .ls), ((.own 4), .code), (.internalNl, .internalNewline), (.newline, .newline)]

/-- src/parsers/dcl.rl:67
```
  dcl_comment_entity = '!' nonnewline*;
``` -/
def dcl_comment_entity : Rx := .seqs [.cls (Cls.chr 33), .star (.cls (Common.nonnewline))]

/-- src/parsers/dcl.rl:69-74.
```
  dcl_entity := |*
    space+             ${ entity = DCL_SPACE;   } => dcl_ecallback;
    dcl_comment_entity ${ entity = DCL_COMMENT; } => dcl_ecallback;
    # TODO:
    ^space;
  *|;
``` -/
def dcl_entity : Scanner where
  pats := [
  (.all (.plus (.cls (Common.space))) (.setEnt (.own 0)), .ecb),
  (.all (dcl_comment_entity) (.setEnt (.own 2)), .ecb),
  (.cls (Cls.neg (Common.space)), .none)]
  sw := []

end Ohcount.Gram.Dcl

namespace Ohcount.Gram.Dylan
open Ohcount.Ragel

/-- src/parsers/dylan.rl:47
```
  dylan_line_comment = '//' @comment nonnewline*;
``` -/
def dylan_line_comment : Rx := .seqs [.fin (.lit [47, 47]) .comment, .star (.cls (Common.nonnewline))]

/-- src/parsers/dylan.rl:48-55
```
  dylan_block_comment =
    '/*' @comment (
      newline %{ entity = INTERNAL_NL; } %dylan_ccallback
      |
      ws
      |
      (nonnewline - ws) @comment
    )* :>> '*/';
``` -/
def dylan_block_comment : Rx := .guard (.seqs [.fin (.lit [47, 42]) .comment, .star (.alts [.leave (.leave (Common.newline) (.setEnt .internalNl)) .cb, .cls (Common.ws), .fin (.cls (Cls.diff (Common.nonnewline) (Common.ws))) .comment])]) (.lit [42, 47])

/-- src/parsers/dylan.rl:56
```
  dylan_comment = dylan_line_comment | dylan_block_comment;
``` -/
def dylan_comment : Rx := .alts [dylan_line_comment, dylan_block_comment]

/-- src/parsers/dylan.rl:58
```
  dylan_char = '\'' @code ([^\r\n\f'\\] | '\\' nonnewline) '\'';
``` -/
def dylan_char : Rx := .seqs [.fin (.cls (Cls.chr 39)) .code, .alts [.cls (Cls.neg (Cls.ranges [(10, 10), (12, 13), (39, 39), (92, 92)])), .seqs [.cls (Cls.chr 92), .cls (Common.nonnewline)]], .cls (Cls.chr 39)]

/-- src/parsers/dylan.rl:59
```
  dylan_dq_str = '"' @code ([^\r\n\f"\\] | '\\' nonnewline)* '"';
``` -/
def dylan_dq_str : Rx := .seqs [.fin (.cls (Cls.chr 34)) .code, .star (.alts [.cls (Cls.neg (Cls.ranges [(10, 10), (12, 13), (34, 34), (92, 92)])), .seqs [.cls (Cls.chr 92), .cls (Common.nonnewline)]]), .cls (Cls.chr 34)]

/-- src/parsers/dylan.rl:60
```
  dylan_string = dylan_char | dylan_dq_str;
``` -/
def dylan_string : Rx := .alts [dylan_char, dylan_dq_str]

/-- src/parsers/dylan.rl:62-68 with the cases of its callback (src/parsers/dylan.rl:31-45).
```
  dylan_line := |*
    spaces         ${ entity = DYLAN_SPACE; } => dylan_ccallback;
    dylan_comment;
    dylan_string;
    newline        ${ entity = NEWLINE;     } => dylan_ccallback;
    ^space         ${ entity = DYLAN_ANY;   } => dylan_ccallback;
  *|;
``` -/
def dylan_line : Scanner where
  pats := [
  (.all (Common.spaces) (.setEnt (.own 0)), .cb),
  (dylan_comment, .none),
  (dylan_string, .none),
  (.all (Common.newline) (.setEnt .newline), .cb),
  (.all (.cls (Cls.neg (Common.space))) (.setEnt (.own 3)), .cb)]
  sw := [((.own 0), .ls), ((.own 3), .code), (.internalNl, .internalNewline), (.newline, .newline)]

/-- src/parsers/dylan.rl:76
```
  dylan_line_comment_entity = '//' nonnewline*;
``` -/
def dylan_line_comment_entity : Rx := .seqs [.lit [47, 47], .star (.cls (Common.nonnewline))]

/-- src/parsers/dylan.rl:77
```
  dylan_block_comment_entity = '/*' any* :>> '*/';
``` -/
def dylan_block_comment_entity : Rx := .guard (.seqs [.lit [47, 42], .star (.cls (Cls.any))]) (.lit [42, 47])

/-- src/parsers/dylan.rl:78
```
  dylan_comment_entity = dylan_line_comment_entity | dylan_block_comment_entity;
``` -/
def dylan_comment_entity : Rx := .alts [dylan_line_comment_entity, dylan_block_comment_entity]

/-- src/parsers/dylan.rl:80-85.
```
  dylan_entity := |*
    space+               ${ entity = DYLAN_SPACE;   } => dylan_ecallback;
    dylan_comment_entity ${ entity = DYLAN_COMMENT; } => dylan_ecallback;
    # TODO:
    ^space;
  *|;
``` -/
def dylan_entity : Scanner where
  pats := [
  (.all (.plus (.cls (Common.space))) (.setEnt (.own 0)), .ecb),
  (.all (dylan_comment_entity) (.setEnt (.own 1)), .ecb),
  (.cls (Cls.neg (Common.space)), .none)]
  sw := []

end Ohcount.Gram.Dylan

namespace Ohcount.Gram.Ebuild
open Ohcount.Ragel

/-- src/parsers/ebuild.rl:47
```
  ebuild_comment = '#' @comment nonnewline*;
``` -/
def ebuild_comment : Rx := .seqs [.fin (.cls (Cls.chr 35)) .comment, .star (.cls (Common.nonnewline))]

/-- src/parsers/ebuild.rl:49
```
  ebuild_sq_str = '\'' @code ([^\r\n\f'\\] | '\\' nonnewline)* '\'';
``` -/
def ebuild_sq_str : Rx := .seqs [.fin (.cls (Cls.chr 39)) .code, .star (.alts [.cls (Cls.neg (Cls.ranges [(10, 10), (12, 13), (39, 39), (92, 92)])), .seqs [.cls (Cls.chr 92), .cls (Common.nonnewline)]]), .cls (Cls.chr 39)]

/-- src/parsers/ebuild.rl:50
```
  ebuild_dq_str = '"' @code ([^\r\n\f"\\] | '\\' nonnewline)* '"';
``` -/
def ebuild_dq_str : Rx := .seqs [.fin (.cls (Cls.chr 34)) .code, .star (.alts [.cls (Cls.neg (Cls.ranges [(10, 10), (12, 13), (34, 34), (92, 92)])), .seqs [.cls (Cls.chr 92), .cls (Common.nonnewline)]]), .cls (Cls.chr 34)]

/-- src/parsers/ebuild.rl:51
```
  ebuild_string = ebuild_sq_str | ebuild_dq_str;
``` -/
def ebuild_string : Rx := .alts [ebuild_sq_str, ebuild_dq_str]

/-- src/parsers/ebuild.rl:53-59 with the cases of its callback (src/parsers/ebuild.rl:31-45).
```
  ebuild_line := |*
    spaces          ${ entity = EBUILD_SPACE; } => ebuild_ccallback;
    ebuild_comment;
    ebuild_string;
    newline         ${ entity = NEWLINE;      } => ebuild_ccallback;
    ^space          ${ entity = EBUILD_ANY;   } => ebuild_ccallback;
  *|;
``` -/
def ebuild_line : Scanner where
  pats := [
  (.all (Common.spaces) (.setEnt (.own 0)), .cb),
  (ebuild_comment, .none),
  (ebuild_string, .none),
  (.all (Common.newline) (.setEnt .newline), .cb),
  (.all (.cls (Cls.neg (Common.space))) (.setEnt (.own 3)), .cb)]
  sw := [((.own 0), .ls), ((.own 3), .code), (.internalNl, .internalNewline), (.newline, .newline)]

/-- src/parsers/ebuild.rl:68
```
  ebuild_comment_entity = '#' nonnewline*;
``` -/
def ebuild_comment_entity : Rx := .seqs [.cls (Cls.chr 35), .star (.cls (Common.nonnewline))]

/-- src/parsers/ebuild.rl:70-75.
```
  ebuild_entity := |*
    space+                ${ entity = EBUILD_SPACE;   } => ebuild_ecallback;
    ebuild_comment_entity ${ entity = EBUILD_COMMENT; } => ebuild_ecallback;
    # TODO:
    ^space;
  *|;
``` -/
def ebuild_entity : Scanner where
  pats := [
  (.all (.plus (.cls (Common.space))) (.setEnt (.own 0)), .ecb),
  (.all (ebuild_comment_entity) (.setEnt (.own 1)), .ecb),
  (.cls (Cls.neg (Common.space)), .none)]
  sw := []

end Ohcount.Gram.Ebuild

