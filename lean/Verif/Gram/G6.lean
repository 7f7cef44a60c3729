import Verif.Gram.Common

/-! Scanners transcribed from src/parsers/: java.rl, javascript.rl, julia.rl, kotlin.rl, limbo.rl, lisp.rl, livecode.rl, logtalk.rl, lua.rl. Generated by tools/gen_grammars.py. -/

namespace Ohcount.Gram.Java
open Ohcount.Ragel

/-- src/parsers/java.rl:49
```
  java_line_comment = '//' @comment nonnewline*;
``` -/
def java_line_comment : Rx := .seqs [.fin (.lit [47, 47]) .comment, .star (.cls (Common.nonnewline))]

/-- src/parsers/java.rl:50-57
```
  java_block_comment =
    '/*' @comment (
      newline %{ entity = INTERNAL_NL; } %java_ccallback
      |
      ws
      |
      (nonnewline - ws) @comment
    )* :>> '*/';
``` -/
def java_block_comment : Rx := .guard (.seqs [.fin (.lit [47, 42]) .comment, .star (.alts [.leave (.leave (Common.newline) (.setEnt .internalNl)) .cb, .cls (Common.ws), .fin (.cls (Cls.diff (Common.nonnewline) (Common.ws))) .comment])]) (.lit [42, 47])

/-- src/parsers/java.rl:58
```
  java_comment = java_line_comment | java_block_comment;
``` -/
def java_comment : Rx := .alts [java_line_comment, java_block_comment]

/-- src/parsers/java.rl:60
```
  java_sq_str = '\'' @code ([^\r\n\f'\\] | '\\' nonnewline)* '\'';
``` -/
def java_sq_str : Rx := .seqs [.fin (.cls (Cls.chr 39)) .code, .star (.alts [.cls (Cls.neg (Cls.ranges [(10, 10), (12, 13), (39, 39), (92, 92)])), .seqs [.cls (Cls.chr 92), .cls (Common.nonnewline)]]), .cls (Cls.chr 39)]

/-- src/parsers/java.rl:61
```
  java_dq_str = '"' @code ([^\r\n\f"\\] | '\\' nonnewline)* '"';
``` -/
def java_dq_str : Rx := .seqs [.fin (.cls (Cls.chr 34)) .code, .star (.alts [.cls (Cls.neg (Cls.ranges [(10, 10), (12, 13), (34, 34), (92, 92)])), .seqs [.cls (Cls.chr 92), .cls (Common.nonnewline)]]), .cls (Cls.chr 34)]

/-- src/parsers/java.rl:62
```
  java_string = java_sq_str | java_dq_str;
``` -/
def java_string : Rx := .alts [java_sq_str, java_dq_str]

/-- src/parsers/java.rl:64-70 with the cases of its callback (src/parsers/java.rl:33-47).
```
  java_line := |*
    spaces        ${ entity = JAVA_SPACE; } => java_ccallback;
    java_comment;
    java_string;
    newline       ${ entity = NEWLINE;    } => java_ccallback;
    ^space        ${ entity = JAVA_ANY;   } => java_ccallback;
  *|;
``` -/
def java_line : Scanner where
  pats := [
  (.all (Common.spaces) (.setEnt (.own 0)), .cb),
  (java_comment, .none),
  (java_string, .none),
  (.all (Common.newline) (.setEnt .newline), .cb),
  (.all (.cls (Cls.neg (Common.space))) (.setEnt (.own 7)), .cb)]
  sw := [((.own 0), .ls), ((.own 7), .code), (.internalNl, .internalNewline), (.newline, .newline)]

/-- src/parsers/java.rl:78
```
  java_line_comment_entity = '//' nonnewline*;
``` -/
def java_line_comment_entity : Rx := .seqs [.lit [47, 47], .star (.cls (Common.nonnewline))]

/-- src/parsers/java.rl:79
```
  java_block_comment_entity = '/*' any* :>> '*/';
``` -/
def java_block_comment_entity : Rx := .guard (.seqs [.lit [47, 42], .star (.cls (Cls.any))]) (.lit [42, 47])

/-- src/parsers/java.rl:80
```
  java_comment_entity = java_line_comment_entity | java_block_comment_entity;
``` -/
def java_comment_entity : Rx := .alts [java_line_comment_entity, java_block_comment_entity]

/-- src/parsers/java.rl:82-87.
```
  java_entity := |*
    space+              ${ entity = JAVA_SPACE;   } => java_ecallback;
    java_comment_entity ${ entity = JAVA_COMMENT; } => java_ecallback;
    # TODO:
    ^space;
  *|;
``` -/
def java_entity : Scanner where
  pats := [
  (.all (.plus (.cls (Common.space))) (.setEnt (.own 0)), .ecb),
  (.all (java_comment_entity) (.setEnt (.own 1)), .ecb),
  (.cls (Cls.neg (Common.space)), .none)]
  sw := []

end Ohcount.Gram.Java

namespace Ohcount.Gram.Javascript
open Ohcount.Ragel

/-- src/parsers/javascript.rl:49
```
  js_line_comment = '//' @comment nonnewline*;
``` -/
def js_line_comment : Rx := .seqs [.fin (.lit [47, 47]) .comment, .star (.cls (Common.nonnewline))]

/-- src/parsers/javascript.rl:50-57
```
  js_block_comment =
    '/*' @comment (
      newline %{ entity = INTERNAL_NL; } %js_ccallback
      |
      ws
      |
      (nonnewline - ws) @comment
    )* :>> '*/';
``` -/
def js_block_comment : Rx := .guard (.seqs [.fin (.lit [47, 42]) .comment, .star (.alts [.leave (.leave (Common.newline) (.setEnt .internalNl)) .cb, .cls (Common.ws), .fin (.cls (Cls.diff (Common.nonnewline) (Common.ws))) .comment])]) (.lit [42, 47])

/-- src/parsers/javascript.rl:58
```
  js_comment = js_line_comment | js_block_comment;
``` -/
def js_comment : Rx := .alts [js_line_comment, js_block_comment]

/-- src/parsers/javascript.rl:62-71
```
  js_sq_str =
    '\'' @code (
      escaped_newline %{ entity = INTERNAL_NL; } %js_ccallback
      |
      ws
      |
      [^\t '\\] @code
      |
      '\\' nonnewline @code
    )* '\'';
``` -/
def js_sq_str : Rx := .seqs [.fin (.cls (Cls.chr 39)) .code, .star (.alts [.leave (.leave (Common.escaped_newline) (.setEnt .internalNl)) .cb, .cls (Common.ws), .fin (.cls (Cls.neg (Cls.chars [9, 32, 39, 92]))) .code, .seqs [.cls (Cls.chr 92), .fin (.cls (Common.nonnewline)) .code]]), .cls (Cls.chr 39)]

/-- src/parsers/javascript.rl:72-81
```
  js_dq_str =
    '"' @code (
      escaped_newline %{ entity = INTERNAL_NL; } %js_ccallback
      |
      ws
      |
      [^\t "\\] @code
      |
      '\\' nonnewline @code
    )* '"';
``` -/
def js_dq_str : Rx := .seqs [.fin (.cls (Cls.chr 34)) .code, .star (.alts [.leave (.leave (Common.escaped_newline) (.setEnt .internalNl)) .cb, .cls (Common.ws), .fin (.cls (Cls.neg (Cls.chars [9, 32, 34, 92]))) .code, .seqs [.cls (Cls.chr 92), .fin (.cls (Common.nonnewline)) .code]]), .cls (Cls.chr 34)]

/-- src/parsers/javascript.rl:82
```
  js_regex_str = '/' [^/*] ([^\r\n\f/\\] | '\\' nonnewline)* '/' @code;
``` -/
def js_regex_str : Rx := .seqs [.cls (Cls.chr 47), .cls (Cls.neg (Cls.chars [42, 47])), .star (.alts [.cls (Cls.neg (Cls.ranges [(10, 10), (12, 13), (47, 47), (92, 92)])), .seqs [.cls (Cls.chr 92), .cls (Common.nonnewline)]]), .fin (.cls (Cls.chr 47)) .code]

/-- src/parsers/javascript.rl:83
```
  js_string = js_sq_str | js_dq_str | js_regex_str;
``` -/
def js_string : Rx := .alts [js_sq_str, js_dq_str, js_regex_str]

/-- src/parsers/javascript.rl:85-91 with the cases of its callback (src/parsers/javascript.rl:33-47).
```
  js_line := |*
    spaces     ${ entity = JS_SPACE; } => js_ccallback;
    js_comment;
    js_string;
    newline    ${ entity = NEWLINE;  } => js_ccallback;
    ^space     ${ entity = JS_ANY;   } => js_ccallback;
  *|;
``` -/
def js_line : Scanner where
  pats := [
  (.all (Common.spaces) (.setEnt (.own 0)), .cb),
  (js_comment, .none),
  (js_string, .none),
  (.all (Common.newline) (.setEnt .newline), .cb),
  (.all (.cls (Cls.neg (Common.space))) (.setEnt (.own 7)), .cb)]
  sw := [((.own 0), .ls), ((.own 7), .code), (.internalNl, .internalNewline), (.newline, .newline)]

/-- src/parsers/javascript.rl:99
```
  js_line_comment_entity = '//' nonnewline*;
``` -/
def js_line_comment_entity : Rx := .seqs [.lit [47, 47], .star (.cls (Common.nonnewline))]

/-- src/parsers/javascript.rl:100
```
  js_block_comment_entity = '/*' any* :>> '*/';
``` -/
def js_block_comment_entity : Rx := .guard (.seqs [.lit [47, 42], .star (.cls (Cls.any))]) (.lit [42, 47])

/-- src/parsers/javascript.rl:101
```
  js_comment_entity = js_line_comment_entity | js_block_comment_entity;
``` -/
def js_comment_entity : Rx := .alts [js_line_comment_entity, js_block_comment_entity]

/-- src/parsers/javascript.rl:103-108.
```
  js_entity := |*
    space+            ${ entity = JS_SPACE;   } => js_ecallback;
    js_comment_entity ${ entity = JS_COMMENT; } => js_ecallback;
    # TODO:
    ^space;
  *|;
``` -/
def js_entity : Scanner where
  pats := [
  (.all (.plus (.cls (Common.space))) (.setEnt (.own 0)), .ecb),
  (.all (js_comment_entity) (.setEnt (.own 1)), .ecb),
  (.cls (Cls.neg (Common.space)), .none)]
  sw := []

end Ohcount.Gram.Javascript

namespace Ohcount.Gram.Julia
open Ohcount.Ragel

/-- src/parsers/julia.rl:45
```
  julia_line_comment = '#' @comment nonnewline*;
``` -/
def julia_line_comment : Rx := .seqs [.fin (.cls (Cls.chr 35)) .comment, .star (.cls (Common.nonnewline))]

/-- src/parsers/julia.rl:46-53
```
  julia_block_comment =
    '#=' @comment (
      newline %{ entity = INTERNAL_NL; } %julia_ccallback
      |
      ws
      |
      (nonnewline - ws) @comment
    )* :>> '=#';
``` -/
def julia_block_comment : Rx := .guard (.seqs [.fin (.lit [35, 61]) .comment, .star (.alts [.leave (.leave (Common.newline) (.setEnt .internalNl)) .cb, .cls (Common.ws), .fin (.cls (Cls.diff (Common.nonnewline) (Common.ws))) .comment])]) (.lit [61, 35])

/-- src/parsers/julia.rl:54-61
```
  julia_sq_doc_str =
    '\'\'\'' @comment (
      newline %{ entity = INTERNAL_NL; } %julia_ccallback
      |
      ws
      |
      (nonnewline - ws) @comment
    )* :>> '\'\'\'' @comment;
``` -/
def julia_sq_doc_str : Rx := .guard (.seqs [.fin (.lit [39, 39, 39]) .comment, .star (.alts [.leave (.leave (Common.newline) (.setEnt .internalNl)) .cb, .cls (Common.ws), .fin (.cls (Cls.diff (Common.nonnewline) (Common.ws))) .comment])]) (.fin (.lit [39, 39, 39]) .comment)

/-- src/parsers/julia.rl:62-69
```
  julia_dq_doc_str =
    '"""' @comment (
      newline %{ entity = INTERNAL_NL; } %julia_ccallback
      |
      ws
      |
      (nonnewline - ws) @comment
    )* :>> '"""' @comment;
``` -/
def julia_dq_doc_str : Rx := .guard (.seqs [.fin (.lit [34, 34, 34]) .comment, .star (.alts [.leave (.leave (Common.newline) (.setEnt .internalNl)) .cb, .cls (Common.ws), .fin (.cls (Cls.diff (Common.nonnewline) (Common.ws))) .comment])]) (.fin (.lit [34, 34, 34]) .comment)

/-- src/parsers/julia.rl:70-71
```
  julia_comment = julia_line_comment | julia_block_comment |
                   julia_sq_doc_str | julia_dq_doc_str;
``` -/
def julia_comment : Rx := .alts [julia_line_comment, julia_block_comment, julia_sq_doc_str, julia_dq_doc_str]

/-- src/parsers/julia.rl:74-76
```
  julia_sq_str =
    '\'' ([^'] | '\'' [^'] @{ fhold; }) @{ fhold; }
      ([^\r\n\f'\\] | '\\' nonnewline)* '\'';
``` -/
def julia_sq_str : Rx := .seqs [.cls (Cls.chr 39), .fin (.alts [.cls (Cls.neg (Cls.chr 39)), .seqs [.cls (Cls.chr 39), .fin (.cls (Cls.neg (Cls.chr 39))) (.fhold 0)]]) (.fhold 1), .star (.alts [.cls (Cls.neg (Cls.ranges [(10, 10), (12, 13), (39, 39), (92, 92)])), .seqs [.cls (Cls.chr 92), .cls (Common.nonnewline)]]), .cls (Cls.chr 39)]

/-- src/parsers/julia.rl:77-79
```
  julia_dq_str =
    '"' ([^"] | '"' [^"] @{ fhold; }) @{ fhold; }
      ([^\r\n\f"\\] | '\\' nonnewline)* '"';
``` -/
def julia_dq_str : Rx := .seqs [.cls (Cls.chr 34), .fin (.alts [.cls (Cls.neg (Cls.chr 34)), .seqs [.cls (Cls.chr 34), .fin (.cls (Cls.neg (Cls.chr 34))) (.fhold 2)]]) (.fhold 3), .star (.alts [.cls (Cls.neg (Cls.ranges [(10, 10), (12, 13), (34, 34), (92, 92)])), .seqs [.cls (Cls.chr 92), .cls (Common.nonnewline)]]), .cls (Cls.chr 34)]

/-- src/parsers/julia.rl:80
```
  julia_string = (julia_sq_str | julia_dq_str) @code;
``` -/
def julia_string : Rx := .fin (.alts [julia_sq_str, julia_dq_str]) .code

/-- src/parsers/julia.rl:82-88 with the cases of its callback (src/parsers/julia.rl:29-43).
```
  julia_line := |*
    spaces          ${ entity = JULIA_SPACE; } => julia_ccallback;
    julia_comment;
    julia_string;
    newline         ${ entity = NEWLINE;     } => julia_ccallback;
    ^space          ${ entity = JULIA_ANY;   } => julia_ccallback;
  *|;
``` -/
def julia_line : Scanner where
  pats := [
  (.all (Common.spaces) (.setEnt (.own 0)), .cb),
  (julia_comment, .none),
  (julia_string, .none),
  (.all (Common.newline) (.setEnt .newline), .cb),
  (.all (.cls (Cls.neg (Common.space))) (.setEnt (.own 3)), .cb)]
  sw := [((.own 0), .ls), ((.own 3), .code), (.internalNl, .internalNewline), (.newline, .newline)]

/-- src/parsers/julia.rl:96
```
  julia_line_comment_entity = '#' nonnewline*;
``` -/
def julia_line_comment_entity : Rx := .seqs [.cls (Cls.chr 35), .star (.cls (Common.nonnewline))]

/-- src/parsers/julia.rl:97
```
  julia_block_comment_entity = '#=' any* :>> '=#';
``` -/
def julia_block_comment_entity : Rx := .guard (.seqs [.lit [35, 61], .star (.cls (Cls.any))]) (.lit [61, 35])

/-- src/parsers/julia.rl:98
```
  julia_sq_doc_str_entity = '\'\'\'' any* :>> '\'\'\'';
``` -/
def julia_sq_doc_str_entity : Rx := .guard (.seqs [.lit [39, 39, 39], .star (.cls (Cls.any))]) (.lit [39, 39, 39])

/-- src/parsers/julia.rl:99
```
  julia_dq_doc_str_entity = '"""' any* :>> '"""';
``` -/
def julia_dq_doc_str_entity : Rx := .guard (.seqs [.lit [34, 34, 34], .star (.cls (Cls.any))]) (.lit [34, 34, 34])

/-- src/parsers/julia.rl:100-101
```
  julia_comment_entity = julia_line_comment_entity | julia_block_comment_entity |
                           julia_sq_doc_str_entity | julia_dq_doc_str_entity;
``` -/
def julia_comment_entity : Rx := .alts [julia_line_comment_entity, julia_block_comment_entity, julia_sq_doc_str_entity, julia_dq_doc_str_entity]

/-- src/parsers/julia.rl:103-107.
```
  julia_entity := |*
    space+               ${ entity = JULIA_SPACE;   } => julia_ecallback;
    julia_comment_entity ${ entity = JULIA_COMMENT; } => julia_ecallback;
    ^space;
  *|;
``` -/
def julia_entity : Scanner where
  pats := [
  (.all (.plus (.cls (Common.space))) (.setEnt (.own 0)), .ecb),
  (.all (julia_comment_entity) (.setEnt (.own 1)), .ecb),
  (.cls (Cls.neg (Common.space)), .none)]
  sw := []

end Ohcount.Gram.Julia

namespace Ohcount.Gram.Kotlin
open Ohcount.Ragel

/-- src/parsers/kotlin.rl:54
```
  kotlin_line_comment = '//' @comment nonnewline*;
``` -/
def kotlin_line_comment : Rx := .seqs [.fin (.lit [47, 47]) .comment, .star (.cls (Common.nonnewline))]

/-- src/parsers/kotlin.rl:55-66
```
  kotlin_block_comment =
    '/*' >kotlin_comment_nc_res @comment (
      newline %{ entity = INTERNAL_NL; } %kotlin_ccallback
      |
      ws
      |
      '/*' @kotlin_comment_nc_inc @comment
      |
      '*/' @kotlin_comment_nc_dec @comment
      |
      (nonnewline - ws) @comment
    )* :>> ('*/' when { kotlin_comment_nest_count == 0 }) @comment;
``` -/
def kotlin_block_comment : Rx := .guard (.seqs [.fin (.ent (.lit [47, 42]) .nestRes) .comment, .star (.alts [.leave (.leave (Common.newline) (.setEnt .internalNl)) .cb, .cls (Common.ws), .fin (.fin (.lit [47, 42]) .nestInc) .comment, .fin (.fin (.lit [42, 47]) .nestDec) .comment, .fin (.cls (Cls.diff (Common.nonnewline) (Common.ws))) .comment])]) (.fin (.cond (.lit [42, 47]) .nestZero) .comment)

/-- src/parsers/kotlin.rl:67
```
  kotlin_comment = kotlin_line_comment | kotlin_block_comment;
``` -/
def kotlin_comment : Rx := .alts [kotlin_line_comment, kotlin_block_comment]

/-- src/parsers/kotlin.rl:69-71
```
  kotlin_dq_str =
    '"' @code ([^"] | '"' [^"] @{ fhold; }) @{ fhold; } # make sure it's not """
      ([^\r\n\f"\\] | '\\' nonnewline)* '"';
``` -/
def kotlin_dq_str : Rx := .seqs [.fin (.cls (Cls.chr 34)) .code, .fin (.alts [.cls (Cls.neg (Cls.chr 34)), .seqs [.cls (Cls.chr 34), .fin (.cls (Cls.neg (Cls.chr 34))) (.fhold 0)]]) (.fhold 1), .star (.alts [.cls (Cls.neg (Cls.ranges [(10, 10), (12, 13), (34, 34), (92, 92)])), .seqs [.cls (Cls.chr 92), .cls (Common.nonnewline)]]), .cls (Cls.chr 34)]

/-- src/parsers/kotlin.rl:72-79
```
  kotlin_raw_str =
    '"""' @code (
      newline %{ entity = INTERNAL_NL; } %kotlin_ccallback
      |
      ws
      |
      [^\t ] @code
    )* '"""';
``` -/
def kotlin_raw_str : Rx := .seqs [.fin (.lit [34, 34, 34]) .code, .star (.alts [.leave (.leave (Common.newline) (.setEnt .internalNl)) .cb, .cls (Common.ws), .fin (.cls (Cls.neg (Cls.chars [9, 32]))) .code]), .lit [34, 34, 34]]

/-- src/parsers/kotlin.rl:80
```
  kotlin_string = kotlin_dq_str | kotlin_raw_str;
``` -/
def kotlin_string : Rx := .alts [kotlin_dq_str, kotlin_raw_str]

/-- src/parsers/kotlin.rl:82-88 with the cases of its callback (src/parsers/kotlin.rl:34-48).
```
  kotlin_line := |*
    spaces    ${ entity = KOTLIN_SPACE; } => kotlin_ccallback;
    kotlin_comment;
    kotlin_string;
    newline   ${ entity = NEWLINE;      } => kotlin_ccallback;
    ^space    ${ entity = KOTLIN_ANY;   } => kotlin_ccallback;
  *|;
``` -/
def kotlin_line : Scanner where
  pats := [
  (.all (Common.spaces) (.setEnt (.own 0)), .cb),
  (kotlin_comment, .none),
  (kotlin_string, .none),
  (.all (Common.newline) (.setEnt .newline), .cb),
  (.all (.cls (Cls.neg (Common.space))) (.setEnt (.own 7)), .cb)]
  sw := [((.own 0), .ls), ((.own 7), .code), (.internalNl, .internalNewline), (.newline, .newline)]

/-- src/parsers/kotlin.rl:96
```
  kotlin_line_comment_entity = '//' nonnewline*;
``` -/
def kotlin_line_comment_entity : Rx := .seqs [.lit [47, 47], .star (.cls (Common.nonnewline))]

/-- src/parsers/kotlin.rl:97
```
  kotlin_block_comment_entity = '/*' any* :>> '*/';
``` -/
def kotlin_block_comment_entity : Rx := .guard (.seqs [.lit [47, 42], .star (.cls (Cls.any))]) (.lit [42, 47])

/-- src/parsers/kotlin.rl:98
```
  kotlin_comment_entity = kotlin_line_comment_entity | kotlin_block_comment_entity;
``` -/
def kotlin_comment_entity : Rx := .alts [kotlin_line_comment_entity, kotlin_block_comment_entity]

/-- src/parsers/kotlin.rl:100
```
  kotlin_raw_string_entity = '"""' any* :>> '"""';
``` -/
def kotlin_raw_string_entity : Rx := .guard (.seqs [.lit [34, 34, 34], .star (.cls (Cls.any))]) (.lit [34, 34, 34])

/-- src/parsers/kotlin.rl:101
```
  kotlin_string_entity = dq_str_with_escapes | kotlin_raw_string_entity;
``` -/
def kotlin_string_entity : Rx := .alts [Common.dq_str_with_escapes, kotlin_raw_string_entity]

/-- src/parsers/kotlin.rl:104
```
  kotlin_long_suffix = 'L';
``` -/
def kotlin_long_suffix : Cls := Cls.chr 76

/-- src/parsers/kotlin.rl:108
```
  kotlin_dec_lit = [0-9]+;
``` -/
def kotlin_dec_lit : Rx := .plus (.cls (Cls.ranges [(48, 57)]))

/-- src/parsers/kotlin.rl:109
```
  kotlin_exponent = [Ee] [\-+]? kotlin_dec_lit;
``` -/
def kotlin_exponent : Rx := .seqs [.cls (Cls.chars [69, 101]), .opt (.cls (Cls.chars [43, 45])), kotlin_dec_lit]

/-- src/parsers/kotlin.rl:103
```
  kotlin_float_suffix_ty = [fF];
``` -/
def kotlin_float_suffix_ty : Cls := Cls.chars [70, 102]

/-- src/parsers/kotlin.rl:110-111
```
  kotlin_float_suffix = (kotlin_exponent | '.' kotlin_dec_lit kotlin_exponent?)?
                      kotlin_float_suffix_ty?;
``` -/
def kotlin_float_suffix : Rx := .seqs [.opt (.alts [kotlin_exponent, .seqs [.cls (Cls.chr 46), kotlin_dec_lit, .opt (kotlin_exponent)]]), .opt (.cls (kotlin_float_suffix_ty))]

/-- src/parsers/kotlin.rl:113
```
  kotlin_num_suffix = kotlin_long_suffix | kotlin_float_suffix;
``` -/
def kotlin_num_suffix : Rx := .alts [.cls (kotlin_long_suffix), kotlin_float_suffix]

/-- src/parsers/kotlin.rl:105-106
```
  kotlin_hex_suffix = kotlin_long_suffix
                    | '.' [0-9A-Fa-f]* kotlin_float_suffix_ty?;
``` -/
def kotlin_hex_suffix : Rx := .alts [.cls (kotlin_long_suffix), .seqs [.cls (Cls.chr 46), .star (.cls (Cls.ranges [(48, 57), (65, 70), (97, 102)])), .opt (.cls (kotlin_float_suffix_ty))]]

/-- src/parsers/kotlin.rl:115-118
```
  kotlin_number_entity = [1-9]   [0-9]*       kotlin_num_suffix?
                     | '0' (     [0-9]*       kotlin_num_suffix?
                           | 'b' [01]+        kotlin_long_suffix?
                           | 'x' [0-9A-Fa-f]+ kotlin_hex_suffix?);
``` -/
def kotlin_number_entity : Rx := .alts [.seqs [.cls (Cls.ranges [(49, 57)]), .star (.cls (Cls.ranges [(48, 57)])), .opt (kotlin_num_suffix)], .seqs [.cls (Cls.chr 48), .alts [.seqs [.star (.cls (Cls.ranges [(48, 57)])), .opt (kotlin_num_suffix)], .seqs [.cls (Cls.chr 98), .plus (.cls (Cls.ranges [(48, 49)])), .opt (.cls (kotlin_long_suffix))], .seqs [.cls (Cls.chr 120), .plus (.cls (Cls.ranges [(48, 57), (65, 70), (97, 102)])), .opt (kotlin_hex_suffix)]]]]

/-- src/parsers/kotlin.rl:120
```
  kotlin_plain_identifier = (alpha | '_') (alnum | '_')*;
``` -/
def kotlin_plain_identifier : Rx := .seqs [.cls (Cls.union (Common.alpha) (Cls.chr 95)), .star (.cls (Cls.union (Common.alnum) (Cls.chr 95)))]

/-- src/parsers/kotlin.rl:121
```
  kotlin_identifier_entity = kotlin_plain_identifier | '`' kotlin_plain_identifier '`';
``` -/
def kotlin_identifier_entity : Rx := .alts [kotlin_plain_identifier, .seqs [.cls (Cls.chr 96), kotlin_plain_identifier, .cls (Cls.chr 96)]]

/-- src/parsers/kotlin.rl:123-127
```
  kotlin_keyword_entity =
    'as' | 'break' | 'class' | 'continue' | 'do' | 'else' | 'false' | 'for' |
    'fun' | 'if' | 'in' | 'is' | 'null' | 'object' | 'package' | 'return' |
    'super' | 'this' | 'This' | 'throw' | 'trait' | 'true' | 'try' | 'type' |
    'val' | 'var' | 'when' | 'while';
``` -/
def kotlin_keyword_entity : Rx := .alts [.lit [97, 115], .lit [98, 114, 101, 97, 107], .lit [99, 108, 97, 115, 115], .lit [99, 111, 110, 116, 105, 110, 117, 101], .lit [100, 111], .lit [101, 108, 115, 101], .lit [102, 97, 108, 115, 101], .lit [102, 111, 114], .lit [102, 117, 110], .lit [105, 102], .lit [105, 110], .lit [105, 115], .lit [110, 117, 108, 108], .lit [111, 98, 106, 101, 99, 116], .lit [112, 97, 99, 107, 97, 103, 101], .lit [114, 101, 116, 117, 114, 110], .lit [115, 117, 112, 101, 114], .lit [116, 104, 105, 115], .lit [84, 104, 105, 115], .lit [116, 104, 114, 111, 119], .lit [116, 114, 97, 105, 116], .lit [116, 114, 117, 101], .lit [116, 114, 121], .lit [116, 121, 112, 101], .lit [118, 97, 108], .lit [118, 97, 114], .lit [119, 104, 101, 110], .lit [119, 104, 105, 108, 101]]

/-- src/parsers/kotlin.rl:129
```
  kotlin_operator_entity = [+\- /*%<>!=^&|?~:;.,()\[\]{}];
``` -/
def kotlin_operator_entity : Cls := Cls.ranges [(33, 33), (37, 38), (40, 47), (58, 63), (91, 91), (93, 94), (123, 126)]

/-- src/parsers/kotlin.rl:131-140.
```
  kotlin_entity := |*
    space+                   ${ entity = KOTLIN_SPACE;      } => kotlin_ecallback;
    kotlin_comment_entity    ${ entity = KOTLIN_COMMENT;    } => kotlin_ecallback;
    kotlin_string_entity     ${ entity = KOTLIN_STRING;     } => kotlin_ecallback;
    kotlin_number_entity     ${ entity = KOTLIN_NUMBER;     } => kotlin_ecallback;
    kotlin_identifier_entity ${ entity = KOTLIN_IDENTIFIER; } => kotlin_ecallback;
    kotlin_keyword_entity    ${ entity = KOTLIN_KEYWORD;    } => kotlin_ecallback;
    kotlin_operator_entity   ${ entity = KOTLIN_OPERATOR;   } => kotlin_ecallback;
    ^(space | digit)         ${ entity = KOTLIN_ANY;        } => kotlin_ecallback;
  *|;
``` -/
def kotlin_entity : Scanner where
  pats := [
  (.all (.plus (.cls (Common.space))) (.setEnt (.own 0)), .ecb),
  (.all (kotlin_comment_entity) (.setEnt (.own 1)), .ecb),
  (.all (kotlin_string_entity) (.setEnt (.own 2)), .ecb),
  (.all (kotlin_number_entity) (.setEnt (.own 3)), .ecb),
  (.all (kotlin_identifier_entity) (.setEnt (.own 5)), .ecb),
  (.all (kotlin_keyword_entity) (.setEnt (.own 4)), .ecb),
  (.all (.cls (kotlin_operator_entity)) (.setEnt (.own 6)), .ecb),
  (.all (.cls (Cls.neg (Cls.union (Common.space) (Common.digit)))) (.setEnt (.own 7)), .ecb)]
  sw := []

end Ohcount.Gram.Kotlin

namespace Ohcount.Gram.Limbo
open Ohcount.Ragel

/-- src/parsers/limbo.rl:50
```
  limbo_comment = '#' @comment nonnewline*;
``` -/
def limbo_comment : Rx := .seqs [.fin (.cls (Cls.chr 35)) .comment, .star (.cls (Common.nonnewline))]

/-- src/parsers/limbo.rl:52-57
```
  limbo_sq_str =
    '\'' @code (
      [^\r\n\f\t '\\] @code
      |
      '\\' nonnewline @code
    )* '\'' @commit;
``` -/
def limbo_sq_str : Rx := .seqs [.fin (.cls (Cls.chr 39)) .code, .star (.alts [.fin (.cls (Cls.neg (Cls.ranges [(9, 10), (12, 13), (32, 32), (39, 39), (92, 92)]))) .code, .seqs [.cls (Cls.chr 92), .fin (.cls (Common.nonnewline)) .code]]), .fin (.cls (Cls.chr 39)) .commit]

/-- src/parsers/limbo.rl:58-63
```
  limbo_dq_str =
    '"' @enqueue @code (
      [^\r\n\f\t "\\] @code
      |
      '\\' nonnewline @code
    )* '"' @commit;
``` -/
def limbo_dq_str : Rx := .seqs [.fin (.fin (.cls (Cls.chr 34)) .enqueue) .code, .star (.alts [.fin (.cls (Cls.neg (Cls.ranges [(9, 10), (12, 13), (32, 32), (34, 34), (92, 92)]))) .code, .seqs [.cls (Cls.chr 92), .fin (.cls (Common.nonnewline)) .code]]), .fin (.cls (Cls.chr 34)) .commit]

/-- src/parsers/limbo.rl:64
```
  limbo_string = limbo_sq_str | limbo_dq_str;
``` -/
def limbo_string : Rx := .alts [limbo_sq_str, limbo_dq_str]

/-- src/parsers/limbo.rl:66-72 with the cases of its callback (src/parsers/limbo.rl:34-48).
```
  limbo_line := |*
    spaces         ${ entity = LIMBO_SPACE; } => limbo_ccallback;
    limbo_comment;
    limbo_string;
    newline        ${ entity = NEWLINE;     } => limbo_ccallback;
    ^space         ${ entity = LIMBO_ANY;   } => limbo_ccallback;
  *|;
``` -/
def limbo_line : Scanner where
  pats := [
  (.all (Common.spaces) (.setEnt (.own 0)), .cb),
  (limbo_comment, .none),
  (limbo_string, .none),
  (.all (Common.newline) (.setEnt .newline), .cb),
  (.all (.cls (Cls.neg (Common.space))) (.setEnt (.own 7)), .cb)]
  sw := [((.own 0), .ls), ((.own 7), .code), (.internalNl, .internalNewline), (.newline, .newline)]

end Ohcount.Gram.Limbo

namespace Ohcount.Gram.Lisp
open Ohcount.Ragel

/-- src/parsers/lisp.rl:55
```
  lisp_line_comment = ';' @comment nonnewline*;
``` -/
def lisp_line_comment : Rx := .seqs [.fin (.cls (Cls.chr 59)) .comment, .star (.cls (Common.nonnewline))]

/-- src/parsers/lisp.rl:47-53
```
  lisp_docstring = '"'{3} @comment (
    newline %{ entity = INTERNAL_NL; } %lisp_ccallback
    |
    ws
    |
    (nonnewline - ws) @comment
  )* :>> '"""' @comment;
``` -/
def lisp_docstring : Rx := .guard (.seqs [.fin (.lit [34, 34, 34]) .comment, .star (.alts [.leave (.leave (Common.newline) (.setEnt .internalNl)) .cb, .cls (Common.ws), .fin (.cls (Cls.diff (Common.nonnewline) (Common.ws))) .comment])]) (.fin (.lit [34, 34, 34]) .comment)

/-- src/parsers/lisp.rl:57
```
  lisp_comment = lisp_line_comment | lisp_docstring;
``` -/
def lisp_comment : Rx := .alts [lisp_line_comment, lisp_docstring]

/-- src/parsers/lisp.rl:59-60
```
  lisp_empty_string =
    '"'{2} [^"] @{fhold;} @code;
``` -/
def lisp_empty_string : Rx := .seqs [.lit [34, 34], .fin (.fin (.cls (Cls.neg (Cls.chr 34))) (.fhold 0)) .code]

/-- src/parsers/lisp.rl:62-63
```
  lisp_char_string =
    '"' [^"] '"' @code;
``` -/
def lisp_char_string : Rx := .seqs [.cls (Cls.chr 34), .cls (Cls.neg (Cls.chr 34)), .fin (.cls (Cls.chr 34)) .code]

/-- src/parsers/lisp.rl:65-74
```
  lisp_regular_string =
    '"' ([^"]{2}) @code (
      newline %{ entity = INTERNAL_NL; } %lisp_ccallback
      |
      ws
      |
      [^\r\n\f\t "\\] @code
      |
      '\\' nonnewline @code
    )* '"';
``` -/
def lisp_regular_string : Rx := .seqs [.cls (Cls.chr 34), .fin (.seqs [.cls (Cls.neg (Cls.chr 34)), .cls (Cls.neg (Cls.chr 34))]) .code, .star (.alts [.leave (.leave (Common.newline) (.setEnt .internalNl)) .cb, .cls (Common.ws), .fin (.cls (Cls.neg (Cls.ranges [(9, 10), (12, 13), (32, 32), (34, 34), (92, 92)]))) .code, .seqs [.cls (Cls.chr 92), .fin (.cls (Common.nonnewline)) .code]]), .cls (Cls.chr 34)]

/-- src/parsers/lisp.rl:76
```
  lisp_string = lisp_empty_string | lisp_char_string | lisp_regular_string;
``` -/
def lisp_string : Rx := .alts [lisp_empty_string, lisp_char_string, lisp_regular_string]

/-- src/parsers/lisp.rl:78-84 with the cases of its callback (src/parsers/lisp.rl:31-45).
```
  lisp_line := |*
    spaces        ${ entity = LISP_SPACE; } => lisp_ccallback;
    lisp_comment;
    lisp_string;
    newline       ${ entity = NEWLINE;    } => lisp_ccallback;
    ^space        ${ entity = LISP_ANY;   } => lisp_ccallback;
  *|;
``` -/
def lisp_line : Scanner where
  pats := [
  (.all (Common.spaces) (.setEnt (.own 0)), .cb),
  (lisp_comment, .none),
  (lisp_string, .none),
  (.all (Common.newline) (.setEnt .newline), .cb),
  (.all (.cls (Cls.neg (Common.space))) (.setEnt (.own 3)), .cb)]
  sw := [((.own 0), .ls), ((.own 3), .code), (.internalNl, .internalNewline), (.newline, .newline)]

/-- src/parsers/lisp.rl:92
```
  lisp_comment_entity = ';' nonnewline*;
``` -/
def lisp_comment_entity : Rx := .seqs [.cls (Cls.chr 59), .star (.cls (Common.nonnewline))]

/-- src/parsers/lisp.rl:94-99.
```
  lisp_entity := |*
    space+              ${ entity = LISP_SPACE;   } => lisp_ecallback;
    lisp_comment_entity ${ entity = LISP_COMMENT; } => lisp_ecallback;
    # TODO:
    ^space;
  *|;
``` -/
def lisp_entity : Scanner where
  pats := [
  (.all (.plus (.cls (Common.space))) (.setEnt (.own 0)), .ecb),
  (.all (lisp_comment_entity) (.setEnt (.own 1)), .ecb),
  (.cls (Cls.neg (Common.space)), .none)]
  sw := []

end Ohcount.Gram.Lisp

namespace Ohcount.Gram.Livecode
open Ohcount.Ragel

/-- src/parsers/livecode.rl:47
```
  livecode_line_comment = ('--' | '#' | '//') @comment nonnewline*;
``` -/
def livecode_line_comment : Rx := .seqs [.fin (.alts [.lit [45, 45], .cls (Cls.chr 35), .lit [47, 47]]) .comment, .star (.cls (Common.nonnewline))]

/-- src/parsers/livecode.rl:48-55
```
  livecode_block_comment =
    '/*' @comment (
      newline %{ entity = INTERNAL_NL; } %livecode_ccallback
      |
      ws
      |
      (nonnewline - ws) @comment
    )* :>> '*/';
``` -/
def livecode_block_comment : Rx := .guard (.seqs [.fin (.lit [47, 42]) .comment, .star (.alts [.leave (.leave (Common.newline) (.setEnt .internalNl)) .cb, .cls (Common.ws), .fin (.cls (Cls.diff (Common.nonnewline) (Common.ws))) .comment])]) (.lit [42, 47])

/-- src/parsers/livecode.rl:57
```
  livecode_comment = livecode_line_comment | livecode_block_comment;
``` -/
def livecode_comment : Rx := .alts [livecode_line_comment, livecode_block_comment]

/-- src/parsers/livecode.rl:59
```
  livecode_string = '"' @code ([^\r\n\f"\\] | '\\' nonnewline)* '"';
``` -/
def livecode_string : Rx := .seqs [.fin (.cls (Cls.chr 34)) .code, .star (.alts [.cls (Cls.neg (Cls.ranges [(10, 10), (12, 13), (34, 34), (92, 92)])), .seqs [.cls (Cls.chr 92), .cls (Common.nonnewline)]]), .cls (Cls.chr 34)]

/-- src/parsers/livecode.rl:61-67 with the cases of its callback (src/parsers/livecode.rl:31-45).
```
  livecode_line := |*
    spaces       ${ entity = LIVECODE_SPACE; } => livecode_ccallback;
    livecode_comment;
    livecode_string;
    newline      ${ entity = NEWLINE;   } => livecode_ccallback;
    ^space       ${ entity = LIVECODE_ANY;   } => livecode_ccallback;
  *|;
``` -/
def livecode_line : Scanner where
  pats := [
  (.all (Common.spaces) (.setEnt (.own 0)), .cb),
  (livecode_comment, .none),
  (livecode_string, .none),
  (.all (Common.newline) (.setEnt .newline), .cb),
  (.all (.cls (Cls.neg (Common.space))) (.setEnt (.own 3)), .cb)]
  sw := [((.own 0), .ls), ((.own 3), .code), (.internalNl, .internalNewline), (.newline, .newline)]

/-- src/parsers/livecode.rl:75
```
  livecode_line_comment_entity = ('--' | '#' | '//') nonnewline*;
``` -/
def livecode_line_comment_entity : Rx := .seqs [.alts [.lit [45, 45], .cls (Cls.chr 35), .lit [47, 47]], .star (.cls (Common.nonnewline))]

/-- src/parsers/livecode.rl:76
```
  livecode_block_comment_entity = '/*' any* :>> '*/';
``` -/
def livecode_block_comment_entity : Rx := .guard (.seqs [.lit [47, 42], .star (.cls (Cls.any))]) (.lit [42, 47])

/-- src/parsers/livecode.rl:77
```
  livecode_comment_entity = livecode_line_comment_entity | livecode_block_comment_entity;
``` -/
def livecode_comment_entity : Rx := .alts [livecode_line_comment_entity, livecode_block_comment_entity]

/-- src/parsers/livecode.rl:79-84.
```
  livecode_entity := |*
    space+             ${ entity = LIVECODE_SPACE;   } => livecode_ecallback;
    livecode_comment_entity ${ entity = LIVECODE_COMMENT; } => livecode_ecallback;
    # TODO:
    ^space;
  *|;
``` -/
def livecode_entity : Scanner where
  pats := [
  (.all (.plus (.cls (Common.space))) (.setEnt (.own 0)), .ecb),
  (.all (livecode_comment_entity) (.setEnt (.own 1)), .ecb),
  (.cls (Cls.neg (Common.space)), .none)]
  sw := []

end Ohcount.Gram.Livecode

namespace Ohcount.Gram.Logtalk
open Ohcount.Ragel

/-- src/parsers/logtalk.rl:47
```
  logtalk_line_comment = '%' @comment nonnewline*;
``` -/
def logtalk_line_comment : Rx := .seqs [.fin (.cls (Cls.chr 37)) .comment, .star (.cls (Common.nonnewline))]

/-- src/parsers/logtalk.rl:48-55
```
  logtalk_block_comment =
    '/*' @comment (
      newline %{ entity = INTERNAL_NL; } %logtalk_ccallback
      |
      ws
      |
      (nonnewline - ws) @comment
    )* :>> '*/';
``` -/
def logtalk_block_comment : Rx := .guard (.seqs [.fin (.lit [47, 42]) .comment, .star (.alts [.leave (.leave (Common.newline) (.setEnt .internalNl)) .cb, .cls (Common.ws), .fin (.cls (Cls.diff (Common.nonnewline) (Common.ws))) .comment])]) (.lit [42, 47])

/-- src/parsers/logtalk.rl:56
```
  logtalk_comment = logtalk_line_comment | logtalk_block_comment;
``` -/
def logtalk_comment : Rx := .alts [logtalk_line_comment, logtalk_block_comment]

/-- src/parsers/logtalk.rl:58
```
  logtalk_sq_str = '\'' @code ([^\r\n\f'\\] | '\\' nonnewline)* '\'';
``` -/
def logtalk_sq_str : Rx := .seqs [.fin (.cls (Cls.chr 39)) .code, .star (.alts [.cls (Cls.neg (Cls.ranges [(10, 10), (12, 13), (39, 39), (92, 92)])), .seqs [.cls (Cls.chr 92), .cls (Common.nonnewline)]]), .cls (Cls.chr 39)]

/-- src/parsers/logtalk.rl:59
```
  logtalk_dq_str = '"' @code ([^\r\n\f"\\] | '\\' nonnewline)* '"';
``` -/
def logtalk_dq_str : Rx := .seqs [.fin (.cls (Cls.chr 34)) .code, .star (.alts [.cls (Cls.neg (Cls.ranges [(10, 10), (12, 13), (34, 34), (92, 92)])), .seqs [.cls (Cls.chr 92), .cls (Common.nonnewline)]]), .cls (Cls.chr 34)]

/-- src/parsers/logtalk.rl:60
```
  logtalk_string = logtalk_sq_str | logtalk_dq_str;
``` -/
def logtalk_string : Rx := .alts [logtalk_sq_str, logtalk_dq_str]

/-- src/parsers/logtalk.rl:62-68 with the cases of its callback (src/parsers/logtalk.rl:31-45).
```
  logtalk_line := |*
    spaces      ${ entity = LOGTALK_SPACE; } => logtalk_ccallback;
    logtalk_comment;
    logtalk_string;
    newline     ${ entity = NEWLINE;   } => logtalk_ccallback;
    ^space      ${ entity = LOGTALK_ANY;   } => logtalk_ccallback;
  *|;
``` -/
def logtalk_line : Scanner where
  pats := [
  (.all (Common.spaces) (.setEnt (.own 0)), .cb),
  (logtalk_comment, .none),
  (logtalk_string, .none),
  (.all (Common.newline) (.setEnt .newline), .cb),
  (.all (.cls (Cls.neg (Common.space))) (.setEnt (.own 3)), .cb)]
  sw := [((.own 0), .ls), ((.own 3), .code), (.internalNl, .internalNewline), (.newline, .newline)]

/-- src/parsers/logtalk.rl:77
```
  logtalk_line_comment_entity = '%' nonnewline*;
``` -/
def logtalk_line_comment_entity : Rx := .seqs [.cls (Cls.chr 37), .star (.cls (Common.nonnewline))]

/-- src/parsers/logtalk.rl:78
```
  logtalk_block_comment_entity = '/*' any* :>> '*/';
``` -/
def logtalk_block_comment_entity : Rx := .guard (.seqs [.lit [47, 42], .star (.cls (Cls.any))]) (.lit [42, 47])

/-- src/parsers/logtalk.rl:79
```
  logtalk_comment_entity = logtalk_line_comment_entity | logtalk_block_comment_entity;
``` -/
def logtalk_comment_entity : Rx := .alts [logtalk_line_comment_entity, logtalk_block_comment_entity]

/-- src/parsers/logtalk.rl:81-86.
```
  logtalk_entity := |*
    space+                ${ entity = LOGTALK_SPACE;   } => logtalk_ecallback;
    logtalk_comment_entity ${ entity = LOGTALK_COMMENT; } => logtalk_ecallback;
    # TODO:
    ^space;
  *|;
``` -/
def logtalk_entity : Scanner where
  pats := [
  (.all (.plus (.cls (Common.space))) (.setEnt (.own 0)), .ecb),
  (.all (logtalk_comment_entity) (.setEnt (.own 1)), .ecb),
  (.cls (Cls.neg (Common.space)), .none)]
  sw := []

end Ohcount.Gram.Logtalk

namespace Ohcount.Gram.Lua
open Ohcount.Ragel

/-- src/parsers/lua.rl:53-60
```
  lua_long_comment =
    '--' ('[' >lua_long_ec_res '='* $lua_long_ec_inc '[') @enqueue @comment (
      newline %{ entity = INTERNAL_NL; } %lua_ccallback
      |
      ws
      |
      (nonnewline - ws) @comment
    )* :>> (']' '='* $lua_long_ec_dec ']' when { equal_count == 0 }) @commit;
``` -/
def lua_long_comment : Rx := .guard (.seqs [.lit [45, 45], .fin (.fin (.seqs [.ent (.cls (Cls.chr 91)) .nestRes, .all (.star (.cls (Cls.chr 61))) .nestInc, .cls (Cls.chr 91)]) .enqueue) .comment, .star (.alts [.leave (.leave (Common.newline) (.setEnt .internalNl)) .cb, .cls (Common.ws), .fin (.cls (Cls.diff (Common.nonnewline) (Common.ws))) .comment])]) (.fin (.seqs [.cls (Cls.chr 93), .all (.star (.cls (Cls.chr 61))) .nestDec, .cond (.cls (Cls.chr 93)) .nestZero]) .commit)

/-- src/parsers/lua.rl:61
```
  lua_line_comment = '--' @comment nonnewline*;
``` -/
def lua_line_comment : Rx := .seqs [.fin (.lit [45, 45]) .comment, .star (.cls (Common.nonnewline))]

/-- src/parsers/lua.rl:62
```
  lua_comment = lua_long_comment | lua_line_comment;
``` -/
def lua_comment : Rx := .alts [lua_long_comment, lua_line_comment]

/-- src/parsers/lua.rl:72-81
```
  lua_sq_str =
    '\'' @code (
      newline %{ entity = INTERNAL_NL; } %lua_ccallback
      |
      ws
      |
      [^\r\n\f\t '\\] @code
      |
      '\\' nonnewline @code
    )* '\'';
``` -/
def lua_sq_str : Rx := .seqs [.fin (.cls (Cls.chr 39)) .code, .star (.alts [.leave (.leave (Common.newline) (.setEnt .internalNl)) .cb, .cls (Common.ws), .fin (.cls (Cls.neg (Cls.ranges [(9, 10), (12, 13), (32, 32), (39, 39), (92, 92)]))) .code, .seqs [.cls (Cls.chr 92), .fin (.cls (Common.nonnewline)) .code]]), .cls (Cls.chr 39)]

/-- src/parsers/lua.rl:82-91
```
  lua_dq_str =
    '"' @code (
      newline %{ entity = INTERNAL_NL; } %lua_ccallback
      |
      ws
      |
      [^\r\n\f\t "\\] @code
      |
      '\\' nonnewline @code
    )* '"';
``` -/
def lua_dq_str : Rx := .seqs [.fin (.cls (Cls.chr 34)) .code, .star (.alts [.leave (.leave (Common.newline) (.setEnt .internalNl)) .cb, .cls (Common.ws), .fin (.cls (Cls.neg (Cls.ranges [(9, 10), (12, 13), (32, 32), (34, 34), (92, 92)]))) .code, .seqs [.cls (Cls.chr 92), .fin (.cls (Common.nonnewline)) .code]]), .cls (Cls.chr 34)]

/-- src/parsers/lua.rl:64-71
```
  lua_long_string =
    ('[' >lua_long_ec_res '='* $lua_long_ec_inc '[') @enqueue @code (
      newline %{ entity = INTERNAL_NL; } %lua_ccallback
      |
      ws
      |
      (nonnewline - ws) @code
    )* :>> (']' '='* $lua_long_ec_dec ']' when { equal_count == 0 }) @commit;
``` -/
def lua_long_string : Rx := .guard (.seqs [.fin (.fin (.seqs [.ent (.cls (Cls.chr 91)) .nestRes, .all (.star (.cls (Cls.chr 61))) .nestInc, .cls (Cls.chr 91)]) .enqueue) .code, .star (.alts [.leave (.leave (Common.newline) (.setEnt .internalNl)) .cb, .cls (Common.ws), .fin (.cls (Cls.diff (Common.nonnewline) (Common.ws))) .code])]) (.fin (.seqs [.cls (Cls.chr 93), .all (.star (.cls (Cls.chr 61))) .nestDec, .cond (.cls (Cls.chr 93)) .nestZero]) .commit)

/-- src/parsers/lua.rl:92
```
  lua_string = lua_sq_str | lua_dq_str | lua_long_string;
``` -/
def lua_string : Rx := .alts [lua_sq_str, lua_dq_str, lua_long_string]

/-- src/parsers/lua.rl:94-100 with the cases of its callback (src/parsers/lua.rl:33-47).
```
  lua_line := |*
    spaces      ${ entity = LUA_SPACE; } => lua_ccallback;
    lua_comment;
    lua_string;
    newline     ${ entity = NEWLINE;   } => lua_ccallback;
    ^space      ${ entity = LUA_ANY;   } => lua_ccallback;
  *|;
``` -/
def lua_line : Scanner where
  pats := [
  (.all (Common.spaces) (.setEnt (.own 0)), .cb),
  (lua_comment, .none),
  (lua_string, .none),
  (.all (Common.newline) (.setEnt .newline), .cb),
  (.all (.cls (Cls.neg (Common.space))) (.setEnt (.own 7)), .cb)]
  sw := [((.own 0), .ls), ((.own 7), .code), (.internalNl, .internalNewline), (.newline, .newline)]

/-- src/parsers/lua.rl:108-110
```
  lua_block_comment_entity =
    '--[' >lua_long_ec_res '='* $lua_long_ec_inc '[' any*
    :>> (']' '='* $lua_long_ec_dec ']' when { equal_count == 0 });
``` -/
def lua_block_comment_entity : Rx := .guard (.seqs [.ent (.lit [45, 45, 91]) .nestRes, .all (.star (.cls (Cls.chr 61))) .nestInc, .cls (Cls.chr 91), .star (.cls (Cls.any))]) (.seqs [.cls (Cls.chr 93), .all (.star (.cls (Cls.chr 61))) .nestDec, .cond (.cls (Cls.chr 93)) .nestZero])

/-- src/parsers/lua.rl:111
```
  lua_line_comment_entity = '--' (nonnewline)*;
``` -/
def lua_line_comment_entity : Rx := .seqs [.lit [45, 45], .star (.cls (Common.nonnewline))]

/-- src/parsers/lua.rl:112
```
  lua_comment_entity = lua_block_comment_entity | lua_line_comment_entity;
``` -/
def lua_comment_entity : Rx := .alts [lua_block_comment_entity, lua_line_comment_entity]

/-- src/parsers/lua.rl:114
```
  lua_string_entity = sq_str_with_escapes | dq_str_with_escapes;
``` -/
def lua_string_entity : Rx := .alts [Common.sq_str_with_escapes, Common.dq_str_with_escapes]

/-- src/parsers/lua.rl:116
```
  lua_integer = '-'? (dec_num | hex_num);
``` -/
def lua_integer : Rx := .seqs [.opt (.cls (Cls.chr 45)), .alts [Common.dec_num, Common.hex_num]]

/-- src/parsers/lua.rl:117
```
  lua_number_entity = float | lua_integer;
``` -/
def lua_number_entity : Rx := .alts [Common.float, lua_integer]

/-- src/parsers/lua.rl:124
```
  lua_identifier_entity = (alpha | '_') alnum*;
``` -/
def lua_identifier_entity : Rx := .seqs [.cls (Cls.union (Common.alpha) (Cls.chr 95)), .star (.cls (Common.alnum))]

/-- src/parsers/lua.rl:119-122
```
  lua_keyword_entity =
    'and' | 'break' | 'do' | 'else' | 'elseif' | 'end' | 'false' | 'for' |
    'function' | 'if' | 'in' | 'local' | 'nil' | 'not' | 'or' | 'repeat' |
    'return' | 'then' | 'true' | 'until' | 'while';
``` -/
def lua_keyword_entity : Rx := .alts [.lit [97, 110, 100], .lit [98, 114, 101, 97, 107], .lit [100, 111], .lit [101, 108, 115, 101], .lit [101, 108, 115, 101, 105, 102], .lit [101, 110, 100], .lit [102, 97, 108, 115, 101], .lit [102, 111, 114], .lit [102, 117, 110, 99, 116, 105, 111, 110], .lit [105, 102], .lit [105, 110], .lit [108, 111, 99, 97, 108], .lit [110, 105, 108], .lit [110, 111, 116], .lit [111, 114], .lit [114, 101, 112, 101, 97, 116], .lit [114, 101, 116, 117, 114, 110], .lit [116, 104, 101, 110], .lit [116, 114, 117, 101], .lit [117, 110, 116, 105, 108], .lit [119, 104, 105, 108, 101]]

/-- src/parsers/lua.rl:126
```
  lua_operator_entity = '~=' | [+\-*/%^#=<>;:,.{}\[\]()];
``` -/
def lua_operator_entity : Rx := .alts [.lit [126, 61], .cls (Cls.ranges [(35, 35), (37, 37), (40, 47), (58, 62), (91, 91), (93, 94), (123, 123), (125, 125)])]

/-- src/parsers/lua.rl:128-137.
```
  lua_entity := |*
    space+                ${ entity = LUA_SPACE;      } => lua_ecallback;
    lua_comment_entity    ${ entity = LUA_COMMENT;    } => lua_ecallback;
    lua_string_entity     ${ entity = LUA_STRING;     } => lua_ecallback;
    lua_number_entity     ${ entity = LUA_NUMBER;     } => lua_ecallback;
    lua_identifier_entity ${ entity = LUA_IDENTIFIER; } => lua_ecallback;
    lua_keyword_entity    ${ entity = LUA_KEYWORD;    } => lua_ecallback;
    lua_operator_entity   ${ entity = LUA_OPERATOR;   } => lua_ecallback;
    ^space                ${ entity = LUA_ANY;        } => lua_ecallback;
  *|;
``` -/
def lua_entity : Scanner where
  pats := [
  (.all (.plus (.cls (Common.space))) (.setEnt (.own 0)), .ecb),
  (.all (lua_comment_entity) (.setEnt (.own 1)), .ecb),
  (.all (lua_string_entity) (.setEnt (.own 2)), .ecb),
  (.all (lua_number_entity) (.setEnt (.own 3)), .ecb),
  (.all (lua_identifier_entity) (.setEnt (.own 5)), .ecb),
  (.all (lua_keyword_entity) (.setEnt (.own 4)), .ecb),
  (.all (lua_operator_entity) (.setEnt (.own 6)), .ecb),
  (.all (.cls (Cls.neg (Common.space))) (.setEnt (.own 7)), .ecb)]
  sw := []

end Ohcount.Gram.Lua

