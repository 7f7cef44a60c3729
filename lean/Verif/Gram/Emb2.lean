import Verif.Gram.Common
import Verif.RagelEmbed

/-! Parsers with embedded languages, transcribed from src/parsers/: jsp.rl, phphtml.rl, clearsilverhtml.rl. Generated by tools/gen_embedded.py. -/

/-! ### jsp.rl -/

namespace Ohcount.Gram.Emb.Jsp
open Ohcount.Ragel

/-- Machine 0: src/parsers/jsp.rl:59-69. A plain machine; the alternative with the call comes first, as Ragel lets its action run first.
```
  jsp_comment := (
    newline %{ entity = INTERNAL_NL; } %jsp_ccallback
    |
    ws
    |
    ^(space | [\-<]) @comment
    |
    '<' '%' @{ saw(JAVA_LANG); fcall jsp_java_line; }
    |
    '<' !'%'
  )* :>> '-->' @comment @{ fgoto jsp_line; };
``` -/
def jsp_comment : EScanner where
  pats := [
  (.guard (.star (.alts [.seqs [.cls (Cls.chr 60), .fin (.cls (Cls.chr 37)) (.emb (.sawCall 3 5))], .leave (.leave (Common.newline) (.setEnt .internalNl)) .cb, .cls (Common.ws), .fin (.cls (Cls.neg (Cls.union (Common.space) (Cls.chars [45, 60])))) .comment, .seqs [.cls (Cls.chr 60), .opt (.seqs [.alts [.cls (Cls.neg (Cls.chr 37)), .seqs [.cls (Cls.chr 37), .cls (Cls.any)]], .star (.cls (Cls.any))])]])) (.fin (.fin (.lit [45, 45, 62]) .comment) (.emb (.goto 6))), .none)]
  scanner := false

/-- Machine 1: src/parsers/jsp.rl:71-83. A plain machine; the alternative with the call comes first, as Ragel lets its action run first.
```
  jsp_sq_str := (
    newline %{ entity = INTERNAL_NL; } %jsp_ccallback
    |
    ws
    |
    [^\r\n\f\t '\\<] @code
    |
    '\\' nonnewline @code
    |
    '<' '%' @{ saw(JAVA_LANG); fcall jsp_java_line; }
    |
    '<' !'%'
  )* '\'' @{ fgoto jsp_line; };
``` -/
def jsp_sq_str : EScanner where
  pats := [
  (.seqs [.star (.alts [.seqs [.cls (Cls.chr 60), .fin (.cls (Cls.chr 37)) (.emb (.sawCall 3 5))], .leave (.leave (Common.newline) (.setEnt .internalNl)) .cb, .cls (Common.ws), .fin (.cls (Cls.neg (Cls.ranges [(9, 10), (12, 13), (32, 32), (39, 39), (60, 60), (92, 92)]))) .code, .seqs [.cls (Cls.chr 92), .fin (.cls (Common.nonnewline)) .code], .seqs [.cls (Cls.chr 60), .opt (.seqs [.alts [.cls (Cls.neg (Cls.chr 37)), .seqs [.cls (Cls.chr 37), .cls (Cls.any)]], .star (.cls (Cls.any))])]]), .fin (.cls (Cls.chr 39)) (.emb (.goto 6))], .none)]
  scanner := false

/-- Machine 2: src/parsers/jsp.rl:84-96. A plain machine; the alternative with the call comes first, as Ragel lets its action run first.
```
  jsp_dq_str := (
    newline %{ entity = INTERNAL_NL; } %jsp_ccallback
    |
    ws
    |
    [^\r\n\f\t "\\<] @code
    |
    '\\' nonnewline @code
    |
    '<' '%' @{ saw(JAVA_LANG); fcall jsp_java_line; }
    |
    '<' !'%'
  )* '"' @{ fgoto jsp_line; };
``` -/
def jsp_dq_str : EScanner where
  pats := [
  (.seqs [.star (.alts [.seqs [.cls (Cls.chr 60), .fin (.cls (Cls.chr 37)) (.emb (.sawCall 3 5))], .leave (.leave (Common.newline) (.setEnt .internalNl)) .cb, .cls (Common.ws), .fin (.cls (Cls.neg (Cls.ranges [(9, 10), (12, 13), (32, 32), (34, 34), (60, 60), (92, 92)]))) .code, .seqs [.cls (Cls.chr 92), .fin (.cls (Common.nonnewline)) .code], .seqs [.cls (Cls.chr 60), .opt (.seqs [.alts [.cls (Cls.neg (Cls.chr 37)), .seqs [.cls (Cls.chr 37), .cls (Cls.any)]], .star (.cls (Cls.any))])]]), .fin (.cls (Cls.chr 34)) (.emb (.goto 6))], .none)]
  scanner := false

/-- src/parsers/jsp.rl:98
```
  ws_or_inl = (ws | newline @{ entity = INTERNAL_NL; } %jsp_ccallback);
``` -/
def ws_or_inl : Rx := .alts [.cls (Common.ws), .leave (.fin (Common.newline) (.setEnt .internalNl)) .cb]

/-- src/parsers/jsp.rl:101
```
  jsp_css_outry = '</' /style/i ws_or_inl* '>' @check_blank_outry @code;
``` -/
def jsp_css_outry : Rx := .seqs [.lit [60, 47], .seqs [.cls (Cls.chars [83, 115]), .cls (Cls.chars [84, 116]), .cls (Cls.chars [89, 121]), .cls (Cls.chars [76, 108]), .cls (Cls.chars [69, 101])], .star (ws_or_inl), .fin (.fin (.cls (Cls.chr 62)) (.emb .outry)) .code]

/-- src/parsers/css.rl:49-56
```
  css_comment =
    '/*' @comment (
      newline %{ entity = INTERNAL_NL; } %css_ccallback
      |
      ws
      |
      (nonnewline - ws) @comment
    )* :>> '*/';
``` -/
def css_comment : Rx := .guard (.seqs [.fin (.lit [47, 42]) .comment, .star (.alts [.leave (.leave (Common.newline) (.setEnt .internalNl)) (.emb (.cb 1)), .cls (Common.ws), .fin (.cls (Cls.diff (Common.nonnewline) (Common.ws))) .comment])]) (.lit [42, 47])

/-- src/parsers/css.rl:58-67
```
  css_sq_str =
    '\'' @code (
      newline %{ entity = INTERNAL_NL; } %css_ccallback
      |
      ws
      |
      [^\r\n\f\t '\\] @code
      |
      '\\' nonnewline @code
    )* '\'';
``` -/
def css_sq_str : Rx := .seqs [.fin (.cls (Cls.chr 39)) .code, .star (.alts [.leave (.leave (Common.newline) (.setEnt .internalNl)) (.emb (.cb 1)), .cls (Common.ws), .fin (.cls (Cls.neg (Cls.ranges [(9, 10), (12, 13), (32, 32), (39, 39), (92, 92)]))) .code, .seqs [.cls (Cls.chr 92), .fin (.cls (Common.nonnewline)) .code]]), .cls (Cls.chr 39)]

/-- src/parsers/css.rl:68-77
```
  css_dq_str =
    '"' @code (
      newline %{ entity = INTERNAL_NL; } %css_ccallback
      |
      ws
      |
      [^\r\n\f\t "\\] @code
      |
      '\\' nonnewline @code
    )* '"';
``` -/
def css_dq_str : Rx := .seqs [.fin (.cls (Cls.chr 34)) .code, .star (.alts [.leave (.leave (Common.newline) (.setEnt .internalNl)) (.emb (.cb 1)), .cls (Common.ws), .fin (.cls (Cls.neg (Cls.ranges [(9, 10), (12, 13), (32, 32), (34, 34), (92, 92)]))) .code, .seqs [.cls (Cls.chr 92), .fin (.cls (Common.nonnewline)) .code]]), .cls (Cls.chr 34)]

/-- src/parsers/css.rl:78
```
  css_string = css_sq_str | css_dq_str;
``` -/
def css_string : Rx := .alts [css_sq_str, css_dq_str]

/-- Machine 3: src/parsers/jsp.rl:102-110.
```
  jsp_css_line := |*
    jsp_css_outry @{ p = ts; fret; };
    # unmodified CSS patterns
    spaces      ${ entity = CSS_SPACE; } => css_ccallback;
    css_comment;
    css_string;
    newline     ${ entity = NEWLINE;   } => css_ccallback;
    ^space      ${ entity = CSS_ANY;   } => css_ccallback;
  *|;
``` -/
def jsp_css_line : EScanner where
  pats := [
  (.fin (jsp_css_outry) (.emb .back), .none),
  (.all (Common.spaces) (.setEnt (.own 0)), .cb 1),
  (css_comment, .none),
  (css_string, .none),
  (.all (Common.newline) (.setEnt .newline), .cb 1),
  (.all (.cls (Cls.neg (Common.space))) (.setEnt (.own 9)), .cb 1)]
  scanner := true

/-- src/parsers/jsp.rl:113
```
  jsp_js_outry = '</' /script/i ws_or_inl* '>' @check_blank_outry @code;
``` -/
def jsp_js_outry : Rx := .seqs [.lit [60, 47], .seqs [.cls (Cls.chars [83, 115]), .cls (Cls.chars [67, 99]), .cls (Cls.chars [82, 114]), .cls (Cls.chars [73, 105]), .cls (Cls.chars [80, 112]), .cls (Cls.chars [84, 116])], .star (ws_or_inl), .fin (.fin (.cls (Cls.chr 62)) (.emb .outry)) .code]

/-- src/parsers/javascript.rl:49
```
  js_line_comment = '//' @comment nonnewline*;
``` -/
def js_line_comment : Rx := .seqs [.fin (.lit [47, 47]) .comment, .star (.cls (Common.nonnewline))]

/-- src/parsers/javascript.rl:50-57
```
  js_block_comment =
    '/*' @comment (
      newline %{ entity = INTERNAL_NL; } %js_ccallback
      |
      ws
      |
      (nonnewline - ws) @comment
    )* :>> '*/';
``` -/
def js_block_comment : Rx := .guard (.seqs [.fin (.lit [47, 42]) .comment, .star (.alts [.leave (.leave (Common.newline) (.setEnt .internalNl)) (.emb (.cb 2)), .cls (Common.ws), .fin (.cls (Cls.diff (Common.nonnewline) (Common.ws))) .comment])]) (.lit [42, 47])

/-- src/parsers/javascript.rl:58
```
  js_comment = js_line_comment | js_block_comment;
``` -/
def js_comment : Rx := .alts [js_line_comment, js_block_comment]

/-- src/parsers/javascript.rl:62-71
```
  js_sq_str =
    '\'' @code (
      escaped_newline %{ entity = INTERNAL_NL; } %js_ccallback
      |
      ws
      |
      [^\t '\\] @code
      |
      '\\' nonnewline @code
    )* '\'';
``` -/
def js_sq_str : Rx := .seqs [.fin (.cls (Cls.chr 39)) .code, .star (.alts [.leave (.leave (Common.escaped_newline) (.setEnt .internalNl)) (.emb (.cb 2)), .cls (Common.ws), .fin (.cls (Cls.neg (Cls.chars [9, 32, 39, 92]))) .code, .seqs [.cls (Cls.chr 92), .fin (.cls (Common.nonnewline)) .code]]), .cls (Cls.chr 39)]

/-- src/parsers/javascript.rl:72-81
```
  js_dq_str =
    '"' @code (
      escaped_newline %{ entity = INTERNAL_NL; } %js_ccallback
      |
      ws
      |
      [^\t "\\] @code
      |
      '\\' nonnewline @code
    )* '"';
``` -/
def js_dq_str : Rx := .seqs [.fin (.cls (Cls.chr 34)) .code, .star (.alts [.leave (.leave (Common.escaped_newline) (.setEnt .internalNl)) (.emb (.cb 2)), .cls (Common.ws), .fin (.cls (Cls.neg (Cls.chars [9, 32, 34, 92]))) .code, .seqs [.cls (Cls.chr 92), .fin (.cls (Common.nonnewline)) .code]]), .cls (Cls.chr 34)]

/-- src/parsers/javascript.rl:82
```
  js_regex_str = '/' [^/*] ([^\r\n\f/\\] | '\\' nonnewline)* '/' @code;
``` -/
def js_regex_str : Rx := .seqs [.cls (Cls.chr 47), .cls (Cls.neg (Cls.chars [42, 47])), .star (.alts [.cls (Cls.neg (Cls.ranges [(10, 10), (12, 13), (47, 47), (92, 92)])), .seqs [.cls (Cls.chr 92), .cls (Common.nonnewline)]]), .fin (.cls (Cls.chr 47)) .code]

/-- src/parsers/javascript.rl:83
```
  js_string = js_sq_str | js_dq_str | js_regex_str;
``` -/
def js_string : Rx := .alts [js_sq_str, js_dq_str, js_regex_str]

/-- Machine 4: src/parsers/jsp.rl:114-122.
```
  jsp_js_line := |*
    jsp_js_outry @{ p = ts; fret; };
    # unmodified Javascript patterns
    spaces     ${ entity = JS_SPACE; } => js_ccallback;
    js_comment;
    js_string;
    newline    ${ entity = NEWLINE;  } => js_ccallback;
    ^space     ${ entity = JS_ANY;   } => js_ccallback;
  *|;
``` -/
def jsp_js_line : EScanner where
  pats := [
  (.fin (jsp_js_outry) (.emb .back), .none),
  (.all (Common.spaces) (.setEnt (.own 0)), .cb 2),
  (js_comment, .none),
  (js_string, .none),
  (.all (Common.newline) (.setEnt .newline), .cb 2),
  (.all (.cls (Cls.neg (Common.space))) (.setEnt (.own 7)), .cb 2)]
  scanner := true

/-- src/parsers/jsp.rl:125
```
  jsp_java_outry = '%>' @check_blank_outry @code;
``` -/
def jsp_java_outry : Rx := .fin (.fin (.lit [37, 62]) (.emb .outry)) .code

/-- src/parsers/java.rl:49
```
  java_line_comment = '//' @comment nonnewline*;
``` -/
def java_line_comment : Rx := .seqs [.fin (.lit [47, 47]) .comment, .star (.cls (Common.nonnewline))]

/-- src/parsers/java.rl:50-57
```
  java_block_comment =
    '/*' @comment (
      newline %{ entity = INTERNAL_NL; } %java_ccallback
      |
      ws
      |
      (nonnewline - ws) @comment
    )* :>> '*/';
``` -/
def java_block_comment : Rx := .guard (.seqs [.fin (.lit [47, 42]) .comment, .star (.alts [.leave (.leave (Common.newline) (.setEnt .internalNl)) (.emb (.cb 3)), .cls (Common.ws), .fin (.cls (Cls.diff (Common.nonnewline) (Common.ws))) .comment])]) (.lit [42, 47])

/-- src/parsers/java.rl:58
```
  java_comment = java_line_comment | java_block_comment;
``` -/
def java_comment : Rx := .alts [java_line_comment, java_block_comment]

/-- src/parsers/java.rl:60
```
  java_sq_str = '\'' @code ([^\r\n\f'\\] | '\\' nonnewline)* '\'';
``` -/
def java_sq_str : Rx := .seqs [.fin (.cls (Cls.chr 39)) .code, .star (.alts [.cls (Cls.neg (Cls.ranges [(10, 10), (12, 13), (39, 39), (92, 92)])), .seqs [.cls (Cls.chr 92), .cls (Common.nonnewline)]]), .cls (Cls.chr 39)]

/-- src/parsers/java.rl:61
```
  java_dq_str = '"' @code ([^\r\n\f"\\] | '\\' nonnewline)* '"';
``` -/
def java_dq_str : Rx := .seqs [.fin (.cls (Cls.chr 34)) .code, .star (.alts [.cls (Cls.neg (Cls.ranges [(10, 10), (12, 13), (34, 34), (92, 92)])), .seqs [.cls (Cls.chr 92), .cls (Common.nonnewline)]]), .cls (Cls.chr 34)]

/-- src/parsers/java.rl:62
```
  java_string = java_sq_str | java_dq_str;
``` -/
def java_string : Rx := .alts [java_sq_str, java_dq_str]

/-- Machine 5: src/parsers/jsp.rl:126-134.
```
  jsp_java_line := |*
    jsp_java_outry @{ p = ts; fret; };
    # unmodified JAVA patterns
    spaces        ${ entity = JAVA_SPACE; } => java_ccallback;
    java_comment;
    java_string;
    newline       ${ entity = NEWLINE;    } => java_ccallback;
    ^space        ${ entity = JAVA_ANY;   } => java_ccallback;
  *|;
``` -/
def jsp_java_line : EScanner where
  pats := [
  (.fin (jsp_java_outry) (.emb .back), .none),
  (.all (Common.spaces) (.setEnt (.own 0)), .cb 3),
  (java_comment, .none),
  (java_string, .none),
  (.all (Common.newline) (.setEnt .newline), .cb 3),
  (.all (.cls (Cls.neg (Common.space))) (.setEnt (.own 7)), .cb 3)]
  scanner := true

/-- src/parsers/jsp.rl:100
```
  jsp_css_entry = '<' /style/i [^>]+ :>> 'text/css' [^>]+ '>' @code;
``` -/
def jsp_css_entry : Rx := .seqs [.guard (.seqs [.cls (Cls.chr 60), .seqs [.cls (Cls.chars [83, 115]), .cls (Cls.chars [84, 116]), .cls (Cls.chars [89, 121]), .cls (Cls.chars [76, 108]), .cls (Cls.chars [69, 101])], .plus (.cls (Cls.neg (Cls.chr 62)))]) (.lit [116, 101, 120, 116, 47, 99, 115, 115]), .plus (.cls (Cls.neg (Cls.chr 62))), .fin (.cls (Cls.chr 62)) .code]

/-- src/parsers/jsp.rl:112
```
  jsp_js_entry = '<' /script/i [^>]+ :>> 'text/javascript' [^>]+ '>' @code;
``` -/
def jsp_js_entry : Rx := .seqs [.guard (.seqs [.cls (Cls.chr 60), .seqs [.cls (Cls.chars [83, 115]), .cls (Cls.chars [67, 99]), .cls (Cls.chars [82, 114]), .cls (Cls.chars [73, 105]), .cls (Cls.chars [80, 112]), .cls (Cls.chars [84, 116])], .plus (.cls (Cls.neg (Cls.chr 62)))]) (.lit [116, 101, 120, 116, 47, 106, 97, 118, 97, 115, 99, 114, 105, 112, 116]), .plus (.cls (Cls.neg (Cls.chr 62))), .fin (.cls (Cls.chr 62)) .code]

/-- src/parsers/jsp.rl:124
```
  jsp_java_entry = '<%' @code;
``` -/
def jsp_java_entry : Rx := .fin (.lit [60, 37]) .code

/-- Machine 6: src/parsers/jsp.rl:136-150.
```
  jsp_line := |*
    jsp_css_entry @{ entity = CHECK_BLANK_ENTRY; } @jsp_ccallback
      @{ saw(CSS_LANG); } => { fcall jsp_css_line; };
    jsp_js_entry @{ entity = CHECK_BLANK_ENTRY; } @jsp_ccallback
      @{ saw(JS_LANG); } => { fcall jsp_js_line; };
    jsp_java_entry @{ entity = CHECK_BLANK_ENTRY; } @jsp_ccallback
      @{ saw(JAVA_LANG); } => { fcall jsp_java_line; };
    # standard JSP patterns
    spaces       ${ entity = JSP_SPACE; } => jsp_ccallback;
    '<!--'       @comment                 => { fgoto jsp_comment; };
    '\''         @code                    => { fgoto jsp_sq_str;  };
    '"'          @code                    => { fgoto jsp_dq_str;  };
    newline      ${ entity = NEWLINE;   } => jsp_ccallback;
    ^space       ${ entity = JSP_ANY;   } => jsp_ccallback;
  *|;
``` -/
def jsp_line : EScanner where
  pats := [
  (.fin (.fin (.fin (jsp_css_entry) (.setEnt .checkBlank)) .cb) (.emb (.saw 1)), .call 3),
  (.fin (.fin (.fin (jsp_js_entry) (.setEnt .checkBlank)) .cb) (.emb (.saw 2)), .call 4),
  (.fin (.fin (.fin (jsp_java_entry) (.setEnt .checkBlank)) .cb) (.emb (.saw 3)), .call 5),
  (.all (Common.spaces) (.setEnt (.own 0)), .cb 0),
  (.fin (.lit [60, 33, 45, 45]) .comment, .goto 0),
  (.fin (.cls (Cls.chr 39)) .code, .goto 1),
  (.fin (.cls (Cls.chr 34)) .code, .goto 2),
  (.all (Common.newline) (.setEnt .newline), .cb 0),
  (.all (.cls (Cls.neg (Common.space))) (.setEnt (.own 5)), .cb 0)]
  scanner := true

/-- src/parsers/jsp.rl:159
```
  jsp_css_outry_entity = '</' /style/i ws_or_inl* '>';
``` -/
def jsp_css_outry_entity : Rx := .seqs [.lit [60, 47], .seqs [.cls (Cls.chars [83, 115]), .cls (Cls.chars [84, 116]), .cls (Cls.chars [89, 121]), .cls (Cls.chars [76, 108]), .cls (Cls.chars [69, 101])], .star (ws_or_inl), .cls (Cls.chr 62)]

/-- src/parsers/css.rl:94
```
  css_comment_entity = '/*' any* :>> '*/';
``` -/
def css_comment_entity : Rx := .guard (.seqs [.lit [47, 42], .star (.cls (Cls.any))]) (.lit [42, 47])

/-- Machine 7: src/parsers/jsp.rl:160-167.
```
  jsp_css_entity := |*
    jsp_css_outry_entity @{ fret; };
    # unmodified CSS patterns
    space+             ${ entity = CSS_SPACE;   } => css_ecallback;
    css_comment_entity ${ entity = CSS_COMMENT; } => css_ecallback;
    # TODO:
    ^space;
  *|;
``` -/
def jsp_css_entity : EScanner where
  pats := [
  (.fin (jsp_css_outry_entity) (.emb .ret), .none),
  (.all (.plus (.cls (Common.space))) (.setEnt (.own 0)), .ecb 1),
  (.all (css_comment_entity) (.setEnt (.own 1)), .ecb 1),
  (.cls (Cls.neg (Common.space)), .none)]
  scanner := true

/-- src/parsers/jsp.rl:170
```
  jsp_js_outry_entity = '</' /script/i ws_or_inl* '>';
``` -/
def jsp_js_outry_entity : Rx := .seqs [.lit [60, 47], .seqs [.cls (Cls.chars [83, 115]), .cls (Cls.chars [67, 99]), .cls (Cls.chars [82, 114]), .cls (Cls.chars [73, 105]), .cls (Cls.chars [80, 112]), .cls (Cls.chars [84, 116])], .star (ws_or_inl), .cls (Cls.chr 62)]

/-- src/parsers/javascript.rl:99
```
  js_line_comment_entity = '//' nonnewline*;
``` -/
def js_line_comment_entity : Rx := .seqs [.lit [47, 47], .star (.cls (Common.nonnewline))]

/-- src/parsers/javascript.rl:100
```
  js_block_comment_entity = '/*' any* :>> '*/';
``` -/
def js_block_comment_entity : Rx := .guard (.seqs [.lit [47, 42], .star (.cls (Cls.any))]) (.lit [42, 47])

/-- src/parsers/javascript.rl:101
```
  js_comment_entity = js_line_comment_entity | js_block_comment_entity;
``` -/
def js_comment_entity : Rx := .alts [js_line_comment_entity, js_block_comment_entity]

/-- Machine 8: src/parsers/jsp.rl:171-178.
```
  jsp_js_entity := |*
    jsp_js_outry_entity @{ fret; };
    # unmodified Javascript patterns
    space+            ${ entity = JS_SPACE;   } => js_ecallback;
    js_comment_entity ${ entity = JS_COMMENT; } => js_ecallback;
    # TODO:
    ^space;
  *|;
``` -/
def jsp_js_entity : EScanner where
  pats := [
  (.fin (jsp_js_outry_entity) (.emb .ret), .none),
  (.all (.plus (.cls (Common.space))) (.setEnt (.own 0)), .ecb 2),
  (.all (js_comment_entity) (.setEnt (.own 1)), .ecb 2),
  (.cls (Cls.neg (Common.space)), .none)]
  scanner := true

/-- src/parsers/jsp.rl:181
```
  jsp_java_outry_entity = '%>';
``` -/
def jsp_java_outry_entity : Rx := .lit [37, 62]

/-- src/parsers/java.rl:78
```
  java_line_comment_entity = '//' nonnewline*;
``` -/
def java_line_comment_entity : Rx := .seqs [.lit [47, 47], .star (.cls (Common.nonnewline))]

/-- src/parsers/java.rl:79
```
  java_block_comment_entity = '/*' any* :>> '*/';
``` -/
def java_block_comment_entity : Rx := .guard (.seqs [.lit [47, 42], .star (.cls (Cls.any))]) (.lit [42, 47])

/-- src/parsers/java.rl:80
```
  java_comment_entity = java_line_comment_entity | java_block_comment_entity;
``` -/
def java_comment_entity : Rx := .alts [java_line_comment_entity, java_block_comment_entity]

/-- Machine 9: src/parsers/jsp.rl:182-189.
```
  jsp_java_entity := |*
    jsp_java_outry_entity @{ fret; };
    # unmodified Java patterns
    space+              ${ entity = JAVA_SPACE;   } => java_ecallback;
    java_comment_entity ${ entity = JAVA_COMMENT; } => java_ecallback;
    # TODO:
    ^space;
  *|;
``` -/
def jsp_java_entity : EScanner where
  pats := [
  (.fin (jsp_java_outry_entity) (.emb .ret), .none),
  (.all (.plus (.cls (Common.space))) (.setEnt (.own 0)), .ecb 3),
  (.all (java_comment_entity) (.setEnt (.own 1)), .ecb 3),
  (.cls (Cls.neg (Common.space)), .none)]
  scanner := true

/-- src/parsers/jsp.rl:158
```
  jsp_css_entry_entity = '<' /style/i [^>]+ :>> 'text/css' [^>]+ '>';
``` -/
def jsp_css_entry_entity : Rx := .seqs [.guard (.seqs [.cls (Cls.chr 60), .seqs [.cls (Cls.chars [83, 115]), .cls (Cls.chars [84, 116]), .cls (Cls.chars [89, 121]), .cls (Cls.chars [76, 108]), .cls (Cls.chars [69, 101])], .plus (.cls (Cls.neg (Cls.chr 62)))]) (.lit [116, 101, 120, 116, 47, 99, 115, 115]), .plus (.cls (Cls.neg (Cls.chr 62))), .cls (Cls.chr 62)]

/-- src/parsers/jsp.rl:169
```
  jsp_js_entry_entity = '<' /script/i [^>]+ :>> 'text/javascript' [^>]+ '>';
``` -/
def jsp_js_entry_entity : Rx := .seqs [.guard (.seqs [.cls (Cls.chr 60), .seqs [.cls (Cls.chars [83, 115]), .cls (Cls.chars [67, 99]), .cls (Cls.chars [82, 114]), .cls (Cls.chars [73, 105]), .cls (Cls.chars [80, 112]), .cls (Cls.chars [84, 116])], .plus (.cls (Cls.neg (Cls.chr 62)))]) (.lit [116, 101, 120, 116, 47, 106, 97, 118, 97, 115, 99, 114, 105, 112, 116]), .plus (.cls (Cls.neg (Cls.chr 62))), .cls (Cls.chr 62)]

/-- src/parsers/jsp.rl:180
```
  jsp_java_entry_entity = '<%';
``` -/
def jsp_java_entry_entity : Rx := .lit [60, 37]

/-- src/parsers/jsp.rl:191
```
  jsp_comment_entity = '<!--' any* :>> '-->';
``` -/
def jsp_comment_entity : Rx := .guard (.seqs [.lit [60, 33, 45, 45], .star (.cls (Cls.any))]) (.lit [45, 45, 62])

/-- Machine 10: src/parsers/jsp.rl:193-203.
```
  jsp_entity := |*
    # TODO: jsp_ecallback for jsp_*_{entry,outry}_entity
    jsp_css_entry_entity  => { fcall jsp_css_entity;  };
    jsp_js_entry_entity   => { fcall jsp_js_entity;   };
    jsp_java_entry_entity => { fcall jsp_java_entity; };
    # standard JSP patterns
    space+             ${ entity = JSP_SPACE;   } => jsp_ecallback;
    jsp_comment_entity ${ entity = JSP_COMMENT; } => jsp_ecallback;
    # TODO:
    ^space;
  *|;
``` -/
def jsp_entity : EScanner where
  pats := [
  (jsp_css_entry_entity, .call 7),
  (jsp_js_entry_entity, .call 8),
  (jsp_java_entry_entity, .call 9),
  (.all (.plus (.cls (Common.space))) (.setEnt (.own 0)), .ecb 0),
  (.all (jsp_comment_entity) (.setEnt (.own 1)), .ecb 0),
  (.cls (Cls.neg (Common.space)), .none)]
  scanner := true

/-- `parse_jsp`, src/parsers/jsp.rl:219-234; the callbacks are src/parsers/jsp.rl:40-57, src/parsers/css.rl:33-47, src/parsers/javascript.rl:33-47, src/parsers/java.rl:33-47. -/
def parser : EParser where
  name := "parse_jsp"
  langs := ["html", "css", "javascript", "java"]
  sws := [
    [((.own 0), .ls), ((.own 5), .code), (.internalNl, .embInternalNewline), (.newline, .embNewline), (.checkBlank, .checkBlank)],
    [((.own 0), .ls), ((.own 9), .code), (.internalNl, .internalNewline), (.newline, .newline)],
    [((.own 0), .ls), ((.own 7), .code), (.internalNl, .internalNewline), (.newline, .newline)],
    [((.own 0), .ls), ((.own 7), .code), (.internalNl, .internalNewline), (.newline, .newline)]]
  machs := [jsp_comment, jsp_sq_str, jsp_dq_str, jsp_css_line, jsp_js_line, jsp_java_line, jsp_line, jsp_css_entity, jsp_js_entity, jsp_java_entity, jsp_entity]
  line := 6
  entity := 10

end Ohcount.Gram.Emb.Jsp

/-! ### phphtml.rl -/

namespace Ohcount.Gram.Emb.Phphtml
open Ohcount.Ragel

/-- Machine 0: src/parsers/phphtml.rl:59-69. A plain machine; the alternative with the call comes first, as Ragel lets its action run first.
```
  phtml_comment := (
    newline %{ entity = INTERNAL_NL; } %phtml_ccallback
    |
    ws
    |
    ^(space | [\-<]) @comment
    |
    '<' '?php' @{ saw(PHP_LANG); fcall phtml_php_line; }
    |
    '<' !'?php'
  )* :>> '-->' @comment @{ fgoto phtml_line; };
``` -/
def phtml_comment : EScanner where
  pats := [
  (.guard (.star (.alts [.seqs [.cls (Cls.chr 60), .fin (.lit [63, 112, 104, 112]) (.emb (.sawCall 3 5))], .leave (.leave (Common.newline) (.setEnt .internalNl)) .cb, .cls (Common.ws), .fin (.cls (Cls.neg (Cls.union (Common.space) (Cls.chars [45, 60])))) .comment, .seqs [.cls (Cls.chr 60), .opt (.alts [.seqs [.alts [.cls (Cls.neg (Cls.chr 63)), .seqs [.cls (Cls.chr 63), .alts [.cls (Cls.neg (Cls.chr 112)), .seqs [.cls (Cls.chr 112), .alts [.cls (Cls.neg (Cls.chr 104)), .seqs [.cls (Cls.chr 104), .alts [.cls (Cls.neg (Cls.chr 112)), .seqs [.cls (Cls.chr 112), .cls (Cls.any)]]]]]]]], .star (.cls (Cls.any))], .seqs [.cls (Cls.chr 63), .opt (.seqs [.cls (Cls.chr 112), .opt (.cls (Cls.chr 104))])]])]])) (.fin (.fin (.lit [45, 45, 62]) .comment) (.emb (.goto 6))), .none)]
  scanner := false

/-- Machine 1: src/parsers/phphtml.rl:71-83. A plain machine; the alternative with the call comes first, as Ragel lets its action run first.
```
  phtml_sq_str := (
    newline %{ entity = INTERNAL_NL; } %phtml_ccallback
    |
    ws
    |
    [^\r\n\f\t '\\<] @code
    |
    '\\' nonnewline @code
    |
    '<' '?php' @{ saw(PHP_LANG); fcall phtml_php_line; }
    |
    '<' !'?php'
  )* '\'' @{ fgoto phtml_line; };
``` -/
def phtml_sq_str : EScanner where
  pats := [
  (.seqs [.star (.alts [.seqs [.cls (Cls.chr 60), .fin (.lit [63, 112, 104, 112]) (.emb (.sawCall 3 5))], .leave (.leave (Common.newline) (.setEnt .internalNl)) .cb, .cls (Common.ws), .fin (.cls (Cls.neg (Cls.ranges [(9, 10), (12, 13), (32, 32), (39, 39), (60, 60), (92, 92)]))) .code, .seqs [.cls (Cls.chr 92), .fin (.cls (Common.nonnewline)) .code], .seqs [.cls (Cls.chr 60), .opt (.alts [.seqs [.alts [.cls (Cls.neg (Cls.chr 63)), .seqs [.cls (Cls.chr 63), .alts [.cls (Cls.neg (Cls.chr 112)), .seqs [.cls (Cls.chr 112), .alts [.cls (Cls.neg (Cls.chr 104)), .seqs [.cls (Cls.chr 104), .alts [.cls (Cls.neg (Cls.chr 112)), .seqs [.cls (Cls.chr 112), .cls (Cls.any)]]]]]]]], .star (.cls (Cls.any))], .seqs [.cls (Cls.chr 63), .opt (.seqs [.cls (Cls.chr 112), .opt (.cls (Cls.chr 104))])]])]]), .fin (.cls (Cls.chr 39)) (.emb (.goto 6))], .none)]
  scanner := false

/-- Machine 2: src/parsers/phphtml.rl:84-96. A plain machine; the alternative with the call comes first, as Ragel lets its action run first.
```
  phtml_dq_str := (
    newline %{ entity = INTERNAL_NL; } %phtml_ccallback
    |
    ws
    |
    [^\r\n\f\t "\\<] @code
    |
    '\\' nonnewline @code
    |
    '<' '?php' @{ saw(PHP_LANG); fcall phtml_php_line; }
    |
    '<' !'?php'
  )* '"' @{ fgoto phtml_line; };
``` -/
def phtml_dq_str : EScanner where
  pats := [
  (.seqs [.star (.alts [.seqs [.cls (Cls.chr 60), .fin (.lit [63, 112, 104, 112]) (.emb (.sawCall 3 5))], .leave (.leave (Common.newline) (.setEnt .internalNl)) .cb, .cls (Common.ws), .fin (.cls (Cls.neg (Cls.ranges [(9, 10), (12, 13), (32, 32), (34, 34), (60, 60), (92, 92)]))) .code, .seqs [.cls (Cls.chr 92), .fin (.cls (Common.nonnewline)) .code], .seqs [.cls (Cls.chr 60), .opt (.alts [.seqs [.alts [.cls (Cls.neg (Cls.chr 63)), .seqs [.cls (Cls.chr 63), .alts [.cls (Cls.neg (Cls.chr 112)), .seqs [.cls (Cls.chr 112), .alts [.cls (Cls.neg (Cls.chr 104)), .seqs [.cls (Cls.chr 104), .alts [.cls (Cls.neg (Cls.chr 112)), .seqs [.cls (Cls.chr 112), .cls (Cls.any)]]]]]]]], .star (.cls (Cls.any))], .seqs [.cls (Cls.chr 63), .opt (.seqs [.cls (Cls.chr 112), .opt (.cls (Cls.chr 104))])]])]]), .fin (.cls (Cls.chr 34)) (.emb (.goto 6))], .none)]
  scanner := false

/-- src/parsers/phphtml.rl:98
```
  ws_or_inl = (ws | newline @{ entity = INTERNAL_NL; } %phtml_ccallback);
``` -/
def ws_or_inl : Rx := .alts [.cls (Common.ws), .leave (.fin (Common.newline) (.setEnt .internalNl)) .cb]

/-- src/parsers/phphtml.rl:101
```
  phtml_css_outry = '</' /style/i ws_or_inl* '>' @check_blank_outry @code;
``` -/
def phtml_css_outry : Rx := .seqs [.lit [60, 47], .seqs [.cls (Cls.chars [83, 115]), .cls (Cls.chars [84, 116]), .cls (Cls.chars [89, 121]), .cls (Cls.chars [76, 108]), .cls (Cls.chars [69, 101])], .star (ws_or_inl), .fin (.fin (.cls (Cls.chr 62)) (.emb .outry)) .code]

/-- src/parsers/css.rl:49-56
```
  css_comment =
    '/*' @comment (
      newline %{ entity = INTERNAL_NL; } %css_ccallback
      |
      ws
      |
      (nonnewline - ws) @comment
    )* :>> '*/';
``` -/
def css_comment : Rx := .guard (.seqs [.fin (.lit [47, 42]) .comment, .star (.alts [.leave (.leave (Common.newline) (.setEnt .internalNl)) (.emb (.cb 1)), .cls (Common.ws), .fin (.cls (Cls.diff (Common.nonnewline) (Common.ws))) .comment])]) (.lit [42, 47])

/-- src/parsers/css.rl:58-67
```
  css_sq_str =
    '\'' @code (
      newline %{ entity = INTERNAL_NL; } %css_ccallback
      |
      ws
      |
      [^\r\n\f\t '\\] @code
      |
      '\\' nonnewline @code
    )* '\'';
``` -/
def css_sq_str : Rx := .seqs [.fin (.cls (Cls.chr 39)) .code, .star (.alts [.leave (.leave (Common.newline) (.setEnt .internalNl)) (.emb (.cb 1)), .cls (Common.ws), .fin (.cls (Cls.neg (Cls.ranges [(9, 10), (12, 13), (32, 32), (39, 39), (92, 92)]))) .code, .seqs [.cls (Cls.chr 92), .fin (.cls (Common.nonnewline)) .code]]), .cls (Cls.chr 39)]

/-- src/parsers/css.rl:68-77
```
  css_dq_str =
    '"' @code (
      newline %{ entity = INTERNAL_NL; } %css_ccallback
      |
      ws
      |
      [^\r\n\f\t "\\] @code
      |
      '\\' nonnewline @code
    )* '"';
``` -/
def css_dq_str : Rx := .seqs [.fin (.cls (Cls.chr 34)) .code, .star (.alts [.leave (.leave (Common.newline) (.setEnt .internalNl)) (.emb (.cb 1)), .cls (Common.ws), .fin (.cls (Cls.neg (Cls.ranges [(9, 10), (12, 13), (32, 32), (34, 34), (92, 92)]))) .code, .seqs [.cls (Cls.chr 92), .fin (.cls (Common.nonnewline)) .code]]), .cls (Cls.chr 34)]

/-- src/parsers/css.rl:78
```
  css_string = css_sq_str | css_dq_str;
``` -/
def css_string : Rx := .alts [css_sq_str, css_dq_str]

/-- Machine 3: src/parsers/phphtml.rl:102-110.
```
  phtml_css_line := |*
    phtml_css_outry @{ p = ts; fret; };
    # unmodified CSS patterns
    spaces      ${ entity = CSS_SPACE; } => css_ccallback;
    css_comment;
    css_string;
    newline     ${ entity = NEWLINE;   } => css_ccallback;
    ^space      ${ entity = CSS_ANY;   } => css_ccallback;
  *|;
``` -/
def phtml_css_line : EScanner where
  pats := [
  (.fin (phtml_css_outry) (.emb .back), .none),
  (.all (Common.spaces) (.setEnt (.own 0)), .cb 1),
  (css_comment, .none),
  (css_string, .none),
  (.all (Common.newline) (.setEnt .newline), .cb 1),
  (.all (.cls (Cls.neg (Common.space))) (.setEnt (.own 9)), .cb 1)]
  scanner := true

/-- src/parsers/phphtml.rl:113
```
  phtml_js_outry = '</' /script/i ws_or_inl* '>' @check_blank_outry @code;
``` -/
def phtml_js_outry : Rx := .seqs [.lit [60, 47], .seqs [.cls (Cls.chars [83, 115]), .cls (Cls.chars [67, 99]), .cls (Cls.chars [82, 114]), .cls (Cls.chars [73, 105]), .cls (Cls.chars [80, 112]), .cls (Cls.chars [84, 116])], .star (ws_or_inl), .fin (.fin (.cls (Cls.chr 62)) (.emb .outry)) .code]

/-- src/parsers/javascript.rl:49
```
  js_line_comment = '//' @comment nonnewline*;
``` -/
def js_line_comment : Rx := .seqs [.fin (.lit [47, 47]) .comment, .star (.cls (Common.nonnewline))]

/-- src/parsers/javascript.rl:50-57
```
  js_block_comment =
    '/*' @comment (
      newline %{ entity = INTERNAL_NL; } %js_ccallback
      |
      ws
      |
      (nonnewline - ws) @comment
    )* :>> '*/';
``` -/
def js_block_comment : Rx := .guard (.seqs [.fin (.lit [47, 42]) .comment, .star (.alts [.leave (.leave (Common.newline) (.setEnt .internalNl)) (.emb (.cb 2)), .cls (Common.ws), .fin (.cls (Cls.diff (Common.nonnewline) (Common.ws))) .comment])]) (.lit [42, 47])

/-- src/parsers/javascript.rl:58
```
  js_comment = js_line_comment | js_block_comment;
``` -/
def js_comment : Rx := .alts [js_line_comment, js_block_comment]

/-- src/parsers/javascript.rl:62-71
```
  js_sq_str =
    '\'' @code (
      escaped_newline %{ entity = INTERNAL_NL; } %js_ccallback
      |
      ws
      |
      [^\t '\\] @code
      |
      '\\' nonnewline @code
    )* '\'';
``` -/
def js_sq_str : Rx := .seqs [.fin (.cls (Cls.chr 39)) .code, .star (.alts [.leave (.leave (Common.escaped_newline) (.setEnt .internalNl)) (.emb (.cb 2)), .cls (Common.ws), .fin (.cls (Cls.neg (Cls.chars [9, 32, 39, 92]))) .code, .seqs [.cls (Cls.chr 92), .fin (.cls (Common.nonnewline)) .code]]), .cls (Cls.chr 39)]

/-- src/parsers/javascript.rl:72-81
```
  js_dq_str =
    '"' @code (
      escaped_newline %{ entity = INTERNAL_NL; } %js_ccallback
      |
      ws
      |
      [^\t "\\] @code
      |
      '\\' nonnewline @code
    )* '"';
``` -/
def js_dq_str : Rx := .seqs [.fin (.cls (Cls.chr 34)) .code, .star (.alts [.leave (.leave (Common.escaped_newline) (.setEnt .internalNl)) (.emb (.cb 2)), .cls (Common.ws), .fin (.cls (Cls.neg (Cls.chars [9, 32, 34, 92]))) .code, .seqs [.cls (Cls.chr 92), .fin (.cls (Common.nonnewline)) .code]]), .cls (Cls.chr 34)]

/-- src/parsers/javascript.rl:82
```
  js_regex_str = '/' [^/*] ([^\r\n\f/\\] | '\\' nonnewline)* '/' @code;
``` -/
def js_regex_str : Rx := .seqs [.cls (Cls.chr 47), .cls (Cls.neg (Cls.chars [42, 47])), .star (.alts [.cls (Cls.neg (Cls.ranges [(10, 10), (12, 13), (47, 47), (92, 92)])), .seqs [.cls (Cls.chr 92), .cls (Common.nonnewline)]]), .fin (.cls (Cls.chr 47)) .code]

/-- src/parsers/javascript.rl:83
```
  js_string = js_sq_str | js_dq_str | js_regex_str;
``` -/
def js_string : Rx := .alts [js_sq_str, js_dq_str, js_regex_str]

/-- Machine 4: src/parsers/phphtml.rl:114-122.
```
  phtml_js_line := |*
    phtml_js_outry @{ p = ts; fret; };
    # unmodified Javascript patterns
    spaces     ${ entity = JS_SPACE; } => js_ccallback;
    js_comment;
    js_string;
    newline    ${ entity = NEWLINE;  } => js_ccallback;
    ^space     ${ entity = JS_ANY;   } => js_ccallback;
  *|;
``` -/
def phtml_js_line : EScanner where
  pats := [
  (.fin (phtml_js_outry) (.emb .back), .none),
  (.all (Common.spaces) (.setEnt (.own 0)), .cb 2),
  (js_comment, .none),
  (js_string, .none),
  (.all (Common.newline) (.setEnt .newline), .cb 2),
  (.all (.cls (Cls.neg (Common.space))) (.setEnt (.own 7)), .cb 2)]
  scanner := true

/-- src/parsers/phphtml.rl:125
```
  phtml_php_outry = '?>' @check_blank_outry @code;
``` -/
def phtml_php_outry : Rx := .fin (.fin (.lit [63, 62]) (.emb .outry)) .code

/-- src/parsers/php.rl:51
```
  php_line_comment = ('//' | '#') @comment nonnewline*;
``` -/
def php_line_comment : Rx := .seqs [.fin (.alts [.lit [47, 47], .cls (Cls.chr 35)]) .comment, .star (.cls (Common.nonnewline))]

/-- src/parsers/php.rl:52-59
```
  php_block_comment =
    '/*' @comment (
      newline %{ entity = INTERNAL_NL; } %php_ccallback
      |
      ws
      |
      (nonnewline - ws) @comment
    )* :>> '*/';
``` -/
def php_block_comment : Rx := .guard (.seqs [.fin (.lit [47, 42]) .comment, .star (.alts [.leave (.leave (Common.newline) (.setEnt .internalNl)) (.emb (.cb 3)), .cls (Common.ws), .fin (.cls (Cls.diff (Common.nonnewline) (Common.ws))) .comment])]) (.lit [42, 47])

/-- src/parsers/php.rl:60
```
  php_comment = php_line_comment | php_block_comment;
``` -/
def php_comment : Rx := .alts [php_line_comment, php_block_comment]

/-- src/parsers/php.rl:62-71
```
  php_sq_str =
    '\'' @enqueue @code (
      newline %{ entity = INTERNAL_NL; } %php_ccallback
      |
      ws
      |
      [^\r\n\f'\\] @code
      |
      '\\' nonnewline @code
    )* '\'' @commit @code;
``` -/
def php_sq_str : Rx := .seqs [.fin (.fin (.cls (Cls.chr 39)) .enqueue) .code, .star (.alts [.leave (.leave (Common.newline) (.setEnt .internalNl)) (.emb (.cb 3)), .cls (Common.ws), .fin (.cls (Cls.neg (Cls.ranges [(10, 10), (12, 13), (39, 39), (92, 92)]))) .code, .seqs [.cls (Cls.chr 92), .fin (.cls (Common.nonnewline)) .code]]), .fin (.fin (.cls (Cls.chr 39)) .commit) .code]

/-- src/parsers/php.rl:72-81
```
  php_dq_str =
    '"' @enqueue @code (
      newline %{ entity = INTERNAL_NL; } %php_ccallback
      |
      ws
      |
      [^\r\n\f"\\] @code
      |
      '\\' nonnewline @code
    )* '"' @commit @code;
``` -/
def php_dq_str : Rx := .seqs [.fin (.fin (.cls (Cls.chr 34)) .enqueue) .code, .star (.alts [.leave (.leave (Common.newline) (.setEnt .internalNl)) (.emb (.cb 3)), .cls (Common.ws), .fin (.cls (Cls.neg (Cls.ranges [(10, 10), (12, 13), (34, 34), (92, 92)]))) .code, .seqs [.cls (Cls.chr 92), .fin (.cls (Common.nonnewline)) .code]]), .fin (.fin (.cls (Cls.chr 34)) .commit) .code]

/-- src/parsers/php.rl:83
```
  php_string = php_sq_str | php_dq_str;
``` -/
def php_string : Rx := .alts [php_sq_str, php_dq_str]

/-- Machine 5: src/parsers/phphtml.rl:126-134.
```
  phtml_php_line := |*
    phtml_php_outry ${ p = ts; fret; };
    # unmodified PHP patterns
    spaces       ${ entity = PHP_SPACE; } => php_ccallback;
    php_comment;
    php_string;
    newline      ${ entity = NEWLINE;   } => php_ccallback;
    ^space       ${ entity = PHP_ANY;   } => php_ccallback;
  *|;
``` -/
def phtml_php_line : EScanner where
  pats := [
  (.all (phtml_php_outry) (.emb .back), .none),
  (.all (Common.spaces) (.setEnt (.own 0)), .cb 3),
  (php_comment, .none),
  (php_string, .none),
  (.all (Common.newline) (.setEnt .newline), .cb 3),
  (.all (.cls (Cls.neg (Common.space))) (.setEnt (.own 3)), .cb 3)]
  scanner := true

/-- src/parsers/phphtml.rl:100
```
  phtml_css_entry = '<' /style/i [^>]+ :>> 'text/css' [^>]+ '>' @code;
``` -/
def phtml_css_entry : Rx := .seqs [.guard (.seqs [.cls (Cls.chr 60), .seqs [.cls (Cls.chars [83, 115]), .cls (Cls.chars [84, 116]), .cls (Cls.chars [89, 121]), .cls (Cls.chars [76, 108]), .cls (Cls.chars [69, 101])], .plus (.cls (Cls.neg (Cls.chr 62)))]) (.lit [116, 101, 120, 116, 47, 99, 115, 115]), .plus (.cls (Cls.neg (Cls.chr 62))), .fin (.cls (Cls.chr 62)) .code]

/-- src/parsers/phphtml.rl:112
```
  phtml_js_entry = '<' /script/i [^>]+ :>> 'text/javascript' [^>]+ '>' @code;
``` -/
def phtml_js_entry : Rx := .seqs [.guard (.seqs [.cls (Cls.chr 60), .seqs [.cls (Cls.chars [83, 115]), .cls (Cls.chars [67, 99]), .cls (Cls.chars [82, 114]), .cls (Cls.chars [73, 105]), .cls (Cls.chars [80, 112]), .cls (Cls.chars [84, 116])], .plus (.cls (Cls.neg (Cls.chr 62)))]) (.lit [116, 101, 120, 116, 47, 106, 97, 118, 97, 115, 99, 114, 105, 112, 116]), .plus (.cls (Cls.neg (Cls.chr 62))), .fin (.cls (Cls.chr 62)) .code]

/-- src/parsers/phphtml.rl:124
```
  phtml_php_entry = ('<?' 'php'?) @code;
``` -/
def phtml_php_entry : Rx := .fin (.seqs [.lit [60, 63], .opt (.lit [112, 104, 112])]) .code

/-- Machine 6: src/parsers/phphtml.rl:136-150.
```
  phtml_line := |*
    phtml_css_entry @{ entity = CHECK_BLANK_ENTRY; } @phtml_ccallback
      @{ saw(CSS_LANG); } => { fcall phtml_css_line; };
    phtml_js_entry @{ entity = CHECK_BLANK_ENTRY; } @phtml_ccallback
      @{ saw(JS_LANG); } => { fcall phtml_js_line; };
    phtml_php_entry @{ entity = CHECK_BLANK_ENTRY; } @php_ccallback
      @{ saw(PHP_LANG); } => { fcall phtml_php_line; };
    # standard PHTML patterns
    spaces       ${ entity = PHTML_SPACE; } => phtml_ccallback;
    '<!--'       @comment                   => { fgoto phtml_comment; };
    '\''         @code                      => { fgoto phtml_sq_str;  };
    '"'          @code                      => { fgoto phtml_dq_str;  };
    newline      ${ entity = NEWLINE;     } => phtml_ccallback;
    ^space       ${ entity = PHTML_ANY;   } => phtml_ccallback;
  *|;
``` -/
def phtml_line : EScanner where
  pats := [
  (.fin (.fin (.fin (phtml_css_entry) (.setEnt .checkBlank)) .cb) (.emb (.saw 1)), .call 3),
  (.fin (.fin (.fin (phtml_js_entry) (.setEnt .checkBlank)) .cb) (.emb (.saw 2)), .call 4),
  (.fin (.fin (.fin (phtml_php_entry) (.setEnt .checkBlank)) (.emb (.cb 3))) (.emb (.saw 3)), .call 5),
  (.all (Common.spaces) (.setEnt (.own 0)), .cb 0),
  (.fin (.lit [60, 33, 45, 45]) .comment, .goto 0),
  (.fin (.cls (Cls.chr 39)) .code, .goto 1),
  (.fin (.cls (Cls.chr 34)) .code, .goto 2),
  (.all (Common.newline) (.setEnt .newline), .cb 0),
  (.all (.cls (Cls.neg (Common.space))) (.setEnt (.own 5)), .cb 0)]
  scanner := true

/-- src/parsers/phphtml.rl:159
```
  phtml_css_outry_entity = '</' /style/i ws_or_inl* '>';
``` -/
def phtml_css_outry_entity : Rx := .seqs [.lit [60, 47], .seqs [.cls (Cls.chars [83, 115]), .cls (Cls.chars [84, 116]), .cls (Cls.chars [89, 121]), .cls (Cls.chars [76, 108]), .cls (Cls.chars [69, 101])], .star (ws_or_inl), .cls (Cls.chr 62)]

/-- src/parsers/css.rl:94
```
  css_comment_entity = '/*' any* :>> '*/';
``` -/
def css_comment_entity : Rx := .guard (.seqs [.lit [47, 42], .star (.cls (Cls.any))]) (.lit [42, 47])

/-- Machine 7: src/parsers/phphtml.rl:160-167.
```
  phtml_css_entity := |*
    phtml_css_outry_entity @{ fret; };
    # unmodified CSS patterns
    space+             ${ entity = CSS_SPACE;   } => css_ecallback;
    css_comment_entity ${ entity = CSS_COMMENT; } => css_ecallback;
    # TODO:
    ^space;
  *|;
``` -/
def phtml_css_entity : EScanner where
  pats := [
  (.fin (phtml_css_outry_entity) (.emb .ret), .none),
  (.all (.plus (.cls (Common.space))) (.setEnt (.own 0)), .ecb 1),
  (.all (css_comment_entity) (.setEnt (.own 1)), .ecb 1),
  (.cls (Cls.neg (Common.space)), .none)]
  scanner := true

/-- src/parsers/phphtml.rl:170
```
  phtml_js_outry_entity = '</' /script/i ws_or_inl* '>';
``` -/
def phtml_js_outry_entity : Rx := .seqs [.lit [60, 47], .seqs [.cls (Cls.chars [83, 115]), .cls (Cls.chars [67, 99]), .cls (Cls.chars [82, 114]), .cls (Cls.chars [73, 105]), .cls (Cls.chars [80, 112]), .cls (Cls.chars [84, 116])], .star (ws_or_inl), .cls (Cls.chr 62)]

/-- src/parsers/javascript.rl:99
```
  js_line_comment_entity = '//' nonnewline*;
``` -/
def js_line_comment_entity : Rx := .seqs [.lit [47, 47], .star (.cls (Common.nonnewline))]

/-- src/parsers/javascript.rl:100
```
  js_block_comment_entity = '/*' any* :>> '*/';
``` -/
def js_block_comment_entity : Rx := .guard (.seqs [.lit [47, 42], .star (.cls (Cls.any))]) (.lit [42, 47])

/-- src/parsers/javascript.rl:101
```
  js_comment_entity = js_line_comment_entity | js_block_comment_entity;
``` -/
def js_comment_entity : Rx := .alts [js_line_comment_entity, js_block_comment_entity]

/-- Machine 8: src/parsers/phphtml.rl:171-178.
```
  phtml_js_entity := |*
    phtml_js_outry_entity @{ fret; };
    # unmodified Javascript patterns
    space+            ${ entity = JS_SPACE;   } => js_ecallback;
    js_comment_entity ${ entity = JS_COMMENT; } => js_ecallback;
    # TODO:
    ^space;
  *|;
``` -/
def phtml_js_entity : EScanner where
  pats := [
  (.fin (phtml_js_outry_entity) (.emb .ret), .none),
  (.all (.plus (.cls (Common.space))) (.setEnt (.own 0)), .ecb 2),
  (.all (js_comment_entity) (.setEnt (.own 1)), .ecb 2),
  (.cls (Cls.neg (Common.space)), .none)]
  scanner := true

/-- src/parsers/phphtml.rl:181
```
  phtml_php_outry_entity = '?>';
``` -/
def phtml_php_outry_entity : Rx := .lit [63, 62]

/-- src/parsers/php.rl:99
```
  php_line_comment_entity = ('#' | '//') nonnewline*;
``` -/
def php_line_comment_entity : Rx := .seqs [.alts [.cls (Cls.chr 35), .lit [47, 47]], .star (.cls (Common.nonnewline))]

/-- src/parsers/php.rl:100
```
  php_block_comment_entity = '/*' any* :>> '*/';
``` -/
def php_block_comment_entity : Rx := .guard (.seqs [.lit [47, 42], .star (.cls (Cls.any))]) (.lit [42, 47])

/-- src/parsers/php.rl:101
```
  php_comment_entity = php_line_comment_entity | php_block_comment_entity;
``` -/
def php_comment_entity : Rx := .alts [php_line_comment_entity, php_block_comment_entity]

/-- Machine 9: src/parsers/phphtml.rl:182-189.
```
  phtml_php_entity := |*
    phtml_php_outry_entity @{ fret; };
    # unmodified PHP patterns
    space+             ${ entity = PHP_SPACE;   } => php_ecallback;
    php_comment_entity ${ entity = PHP_COMMENT; } => php_ecallback;
    # TODO:
    ^space;
  *|;
``` -/
def phtml_php_entity : EScanner where
  pats := [
  (.fin (phtml_php_outry_entity) (.emb .ret), .none),
  (.all (.plus (.cls (Common.space))) (.setEnt (.own 0)), .ecb 3),
  (.all (php_comment_entity) (.setEnt (.own 1)), .ecb 3),
  (.cls (Cls.neg (Common.space)), .none)]
  scanner := true

/-- src/parsers/phphtml.rl:158
```
  phtml_css_entry_entity = '<' /style/i [^>]+ :>> 'text/css' [^>]+ '>';
``` -/
def phtml_css_entry_entity : Rx := .seqs [.guard (.seqs [.cls (Cls.chr 60), .seqs [.cls (Cls.chars [83, 115]), .cls (Cls.chars [84, 116]), .cls (Cls.chars [89, 121]), .cls (Cls.chars [76, 108]), .cls (Cls.chars [69, 101])], .plus (.cls (Cls.neg (Cls.chr 62)))]) (.lit [116, 101, 120, 116, 47, 99, 115, 115]), .plus (.cls (Cls.neg (Cls.chr 62))), .cls (Cls.chr 62)]

/-- src/parsers/phphtml.rl:169
```
  phtml_js_entry_entity = '<' /script/i [^>]+ :>> 'text/javascript' [^>]+ '>';
``` -/
def phtml_js_entry_entity : Rx := .seqs [.guard (.seqs [.cls (Cls.chr 60), .seqs [.cls (Cls.chars [83, 115]), .cls (Cls.chars [67, 99]), .cls (Cls.chars [82, 114]), .cls (Cls.chars [73, 105]), .cls (Cls.chars [80, 112]), .cls (Cls.chars [84, 116])], .plus (.cls (Cls.neg (Cls.chr 62)))]) (.lit [116, 101, 120, 116, 47, 106, 97, 118, 97, 115, 99, 114, 105, 112, 116]), .plus (.cls (Cls.neg (Cls.chr 62))), .cls (Cls.chr 62)]

/-- src/parsers/phphtml.rl:180
```
  phtml_php_entry_entity = '<?' 'php'?;
``` -/
def phtml_php_entry_entity : Rx := .seqs [.lit [60, 63], .opt (.lit [112, 104, 112])]

/-- src/parsers/phphtml.rl:191
```
  phtml_comment_entity = '<!--' any* :>> '-->';
``` -/
def phtml_comment_entity : Rx := .guard (.seqs [.lit [60, 33, 45, 45], .star (.cls (Cls.any))]) (.lit [45, 45, 62])

/-- Machine 10: src/parsers/phphtml.rl:193-203.
```
  phtml_entity := |*
    # TODO: phtml_ecallback for phtml_*_{entry,outry}_entity
    phtml_css_entry_entity => { fcall phtml_css_entity; };
    phtml_js_entry_entity  => { fcall phtml_js_entity;  };
    phtml_php_entry_entity => { fcall phtml_php_entity; };
    # standard PHML patterns
    space+               ${ entity = PHTML_SPACE;   } => phtml_ecallback;
    phtml_comment_entity ${ entity = PHTML_COMMENT; } => phtml_ecallback;
    # TODO:
    ^space;
  *|;
``` -/
def phtml_entity : EScanner where
  pats := [
  (phtml_css_entry_entity, .call 7),
  (phtml_js_entry_entity, .call 8),
  (phtml_php_entry_entity, .call 9),
  (.all (.plus (.cls (Common.space))) (.setEnt (.own 0)), .ecb 0),
  (.all (phtml_comment_entity) (.setEnt (.own 1)), .ecb 0),
  (.cls (Cls.neg (Common.space)), .none)]
  scanner := true

/-- `parse_phtml`, src/parsers/phphtml.rl:219-234; the callbacks are src/parsers/phphtml.rl:40-57, src/parsers/css.rl:33-47, src/parsers/javascript.rl:33-47, src/parsers/php.rl:31-49. -/
def parser : EParser where
  name := "parse_phtml"
  langs := ["html", "css", "javascript", "php"]
  sws := [
    [((.own 0), .ls), ((.own 5), .code), (.internalNl, .embInternalNewline), (.newline, .embNewline), (.checkBlank, .checkBlank)],
    [((.own 0), .ls), ((.own 9), .code), (.internalNl, .internalNewline), (.newline, .newline)],
    [((.own 0), .ls), ((.own 7), .code), (.internalNl, .internalNewline), (.newline, .newline)],
    [((.own 0), .ls), ((.own 3), .code), (.internalNl, .internalNewline), (.newline, .newline), (.checkBlank, .checkBlank)]]
  machs := [phtml_comment, phtml_sq_str, phtml_dq_str, phtml_css_line, phtml_js_line, phtml_php_line, phtml_line, phtml_css_entity, phtml_js_entity, phtml_php_entity, phtml_entity]
  line := 6
  entity := 10

end Ohcount.Gram.Emb.Phphtml

/-! ### clearsilverhtml.rl -/

namespace Ohcount.Gram.Emb.Clearsilverhtml
open Ohcount.Ragel

/-- Machine 0: src/parsers/clearsilverhtml.rl:59-69. A plain machine; the alternative with the call comes first, as Ragel lets its action run first.
```
  cshtml_comment := (
    newline %{ entity = INTERNAL_NL; } %cshtml_ccallback
    |
    ws
    |
    ^(space | [\-<]) @comment
    |
    '<' '?cs' @{ saw(CS_LANG); fcall cshtml_cs_line; }
    |
    '<' !'?cs'
  )* :>> '-->' @comment @{ fgoto cshtml_line; };
``` -/
def cshtml_comment : EScanner where
  pats := [
  (.guard (.star (.alts [.seqs [.cls (Cls.chr 60), .fin (.lit [63, 99, 115]) (.emb (.sawCall 3 5))], .leave (.leave (Common.newline) (.setEnt .internalNl)) .cb, .cls (Common.ws), .fin (.cls (Cls.neg (Cls.union (Common.space) (Cls.chars [45, 60])))) .comment, .seqs [.cls (Cls.chr 60), .opt (.alts [.seqs [.alts [.cls (Cls.neg (Cls.chr 63)), .seqs [.cls (Cls.chr 63), .alts [.cls (Cls.neg (Cls.chr 99)), .seqs [.cls (Cls.chr 99), .alts [.cls (Cls.neg (Cls.chr 115)), .seqs [.cls (Cls.chr 115), .cls (Cls.any)]]]]]], .star (.cls (Cls.any))], .seqs [.cls (Cls.chr 63), .opt (.cls (Cls.chr 99))]])]])) (.fin (.fin (.lit [45, 45, 62]) .comment) (.emb (.goto 6))), .none)]
  scanner := false

/-- Machine 1: src/parsers/clearsilverhtml.rl:71-83. A plain machine; the alternative with the call comes first, as Ragel lets its action run first.
```
  cshtml_sq_str := (
    newline %{ entity = INTERNAL_NL; } %cshtml_ccallback
    |
    ws
    |
    [^\r\n\f\t '\\<] @code
    |
    '\\' nonnewline @code
    |
    '<' '?cs' @{ saw(CS_LANG); fcall cshtml_cs_line; }
    |
    '<' !'?cs'
  )* '\'' @{ fgoto cshtml_line; };
``` -/
def cshtml_sq_str : EScanner where
  pats := [
  (.seqs [.star (.alts [.seqs [.cls (Cls.chr 60), .fin (.lit [63, 99, 115]) (.emb (.sawCall 3 5))], .leave (.leave (Common.newline) (.setEnt .internalNl)) .cb, .cls (Common.ws), .fin (.cls (Cls.neg (Cls.ranges [(9, 10), (12, 13), (32, 32), (39, 39), (60, 60), (92, 92)]))) .code, .seqs [.cls (Cls.chr 92), .fin (.cls (Common.nonnewline)) .code], .seqs [.cls (Cls.chr 60), .opt (.alts [.seqs [.alts [.cls (Cls.neg (Cls.chr 63)), .seqs [.cls (Cls.chr 63), .alts [.cls (Cls.neg (Cls.chr 99)), .seqs [.cls (Cls.chr 99), .alts [.cls (Cls.neg (Cls.chr 115)), .seqs [.cls (Cls.chr 115), .cls (Cls.any)]]]]]], .star (.cls (Cls.any))], .seqs [.cls (Cls.chr 63), .opt (.cls (Cls.chr 99))]])]]), .fin (.cls (Cls.chr 39)) (.emb (.goto 6))], .none)]
  scanner := false

/-- Machine 2: src/parsers/clearsilverhtml.rl:84-96. A plain machine; the alternative with the call comes first, as Ragel lets its action run first.
```
  cshtml_dq_str := (
    newline %{ entity = INTERNAL_NL; } %cshtml_ccallback
    |
    ws
    |
    [^\r\n\f\t "\\<] @code
    |
    '\\' nonnewline @code
    |
    '<' '?cs' @{ saw(CS_LANG); fcall cshtml_cs_line; }
    |
    '<' !'?cs'
  )* '"' @{ fgoto cshtml_line; };
``` -/
def cshtml_dq_str : EScanner where
  pats := [
  (.seqs [.star (.alts [.seqs [.cls (Cls.chr 60), .fin (.lit [63, 99, 115]) (.emb (.sawCall 3 5))], .leave (.leave (Common.newline) (.setEnt .internalNl)) .cb, .cls (Common.ws), .fin (.cls (Cls.neg (Cls.ranges [(9, 10), (12, 13), (32, 32), (34, 34), (60, 60), (92, 92)]))) .code, .seqs [.cls (Cls.chr 92), .fin (.cls (Common.nonnewline)) .code], .seqs [.cls (Cls.chr 60), .opt (.alts [.seqs [.alts [.cls (Cls.neg (Cls.chr 63)), .seqs [.cls (Cls.chr 63), .alts [.cls (Cls.neg (Cls.chr 99)), .seqs [.cls (Cls.chr 99), .alts [.cls (Cls.neg (Cls.chr 115)), .seqs [.cls (Cls.chr 115), .cls (Cls.any)]]]]]], .star (.cls (Cls.any))], .seqs [.cls (Cls.chr 63), .opt (.cls (Cls.chr 99))]])]]), .fin (.cls (Cls.chr 34)) (.emb (.goto 6))], .none)]
  scanner := false

/-- src/parsers/clearsilverhtml.rl:98
```
  ws_or_inl = (ws | newline @{ entity = INTERNAL_NL; } %cshtml_ccallback);
``` -/
def ws_or_inl : Rx := .alts [.cls (Common.ws), .leave (.fin (Common.newline) (.setEnt .internalNl)) .cb]

/-- src/parsers/clearsilverhtml.rl:101
```
  cshtml_css_outry = '</' /style/i ws_or_inl* '>' @check_blank_outry @code;
``` -/
def cshtml_css_outry : Rx := .seqs [.lit [60, 47], .seqs [.cls (Cls.chars [83, 115]), .cls (Cls.chars [84, 116]), .cls (Cls.chars [89, 121]), .cls (Cls.chars [76, 108]), .cls (Cls.chars [69, 101])], .star (ws_or_inl), .fin (.fin (.cls (Cls.chr 62)) (.emb .outry)) .code]

/-- src/parsers/css.rl:49-56
```
  css_comment =
    '/*' @comment (
      newline %{ entity = INTERNAL_NL; } %css_ccallback
      |
      ws
      |
      (nonnewline - ws) @comment
    )* :>> '*/';
``` -/
def css_comment : Rx := .guard (.seqs [.fin (.lit [47, 42]) .comment, .star (.alts [.leave (.leave (Common.newline) (.setEnt .internalNl)) (.emb (.cb 1)), .cls (Common.ws), .fin (.cls (Cls.diff (Common.nonnewline) (Common.ws))) .comment])]) (.lit [42, 47])

/-- src/parsers/css.rl:58-67
```
  css_sq_str =
    '\'' @code (
      newline %{ entity = INTERNAL_NL; } %css_ccallback
      |
      ws
      |
      [^\r\n\f\t '\\] @code
      |
      '\\' nonnewline @code
    )* '\'';
``` -/
def css_sq_str : Rx := .seqs [.fin (.cls (Cls.chr 39)) .code, .star (.alts [.leave (.leave (Common.newline) (.setEnt .internalNl)) (.emb (.cb 1)), .cls (Common.ws), .fin (.cls (Cls.neg (Cls.ranges [(9, 10), (12, 13), (32, 32), (39, 39), (92, 92)]))) .code, .seqs [.cls (Cls.chr 92), .fin (.cls (Common.nonnewline)) .code]]), .cls (Cls.chr 39)]

/-- src/parsers/css.rl:68-77
```
  css_dq_str =
    '"' @code (
      newline %{ entity = INTERNAL_NL; } %css_ccallback
      |
      ws
      |
      [^\r\n\f\t "\\] @code
      |
      '\\' nonnewline @code
    )* '"';
``` -/
def css_dq_str : Rx := .seqs [.fin (.cls (Cls.chr 34)) .code, .star (.alts [.leave (.leave (Common.newline) (.setEnt .internalNl)) (.emb (.cb 1)), .cls (Common.ws), .fin (.cls (Cls.neg (Cls.ranges [(9, 10), (12, 13), (32, 32), (34, 34), (92, 92)]))) .code, .seqs [.cls (Cls.chr 92), .fin (.cls (Common.nonnewline)) .code]]), .cls (Cls.chr 34)]

/-- src/parsers/css.rl:78
```
  css_string = css_sq_str | css_dq_str;
``` -/
def css_string : Rx := .alts [css_sq_str, css_dq_str]

/-- Machine 3: src/parsers/clearsilverhtml.rl:102-110.
```
  cshtml_css_line := |*
    cshtml_css_outry @{ p = ts; fret; };
    # unmodified CSS patterns
    spaces       ${ entity = CSS_SPACE; } => css_ccallback;
    css_comment;
    css_string;
    newline      ${ entity = NEWLINE;   } => css_ccallback;
    ^space       ${ entity = CSS_ANY;   } => css_ccallback;
  *|;
``` -/
def cshtml_css_line : EScanner where
  pats := [
  (.fin (cshtml_css_outry) (.emb .back), .none),
  (.all (Common.spaces) (.setEnt (.own 0)), .cb 1),
  (css_comment, .none),
  (css_string, .none),
  (.all (Common.newline) (.setEnt .newline), .cb 1),
  (.all (.cls (Cls.neg (Common.space))) (.setEnt (.own 9)), .cb 1)]
  scanner := true

/-- src/parsers/clearsilverhtml.rl:113
```
  cshtml_js_outry = '</' /script/i ws_or_inl* '>' @check_blank_outry @code;
``` -/
def cshtml_js_outry : Rx := .seqs [.lit [60, 47], .seqs [.cls (Cls.chars [83, 115]), .cls (Cls.chars [67, 99]), .cls (Cls.chars [82, 114]), .cls (Cls.chars [73, 105]), .cls (Cls.chars [80, 112]), .cls (Cls.chars [84, 116])], .star (ws_or_inl), .fin (.fin (.cls (Cls.chr 62)) (.emb .outry)) .code]

/-- src/parsers/javascript.rl:49
```
  js_line_comment = '//' @comment nonnewline*;
``` -/
def js_line_comment : Rx := .seqs [.fin (.lit [47, 47]) .comment, .star (.cls (Common.nonnewline))]

/-- src/parsers/javascript.rl:50-57
```
  js_block_comment =
    '/*' @comment (
      newline %{ entity = INTERNAL_NL; } %js_ccallback
      |
      ws
      |
      (nonnewline - ws) @comment
    )* :>> '*/';
``` -/
def js_block_comment : Rx := .guard (.seqs [.fin (.lit [47, 42]) .comment, .star (.alts [.leave (.leave (Common.newline) (.setEnt .internalNl)) (.emb (.cb 2)), .cls (Common.ws), .fin (.cls (Cls.diff (Common.nonnewline) (Common.ws))) .comment])]) (.lit [42, 47])

/-- src/parsers/javascript.rl:58
```
  js_comment = js_line_comment | js_block_comment;
``` -/
def js_comment : Rx := .alts [js_line_comment, js_block_comment]

/-- src/parsers/javascript.rl:62-71
```
  js_sq_str =
    '\'' @code (
      escaped_newline %{ entity = INTERNAL_NL; } %js_ccallback
      |
      ws
      |
      [^\t '\\] @code
      |
      '\\' nonnewline @code
    )* '\'';
``` -/
def js_sq_str : Rx := .seqs [.fin (.cls (Cls.chr 39)) .code, .star (.alts [.leave (.leave (Common.escaped_newline) (.setEnt .internalNl)) (.emb (.cb 2)), .cls (Common.ws), .fin (.cls (Cls.neg (Cls.chars [9, 32, 39, 92]))) .code, .seqs [.cls (Cls.chr 92), .fin (.cls (Common.nonnewline)) .code]]), .cls (Cls.chr 39)]

/-- src/parsers/javascript.rl:72-81
```
  js_dq_str =
    '"' @code (
      escaped_newline %{ entity = INTERNAL_NL; } %js_ccallback
      |
      ws
      |
      [^\t "\\] @code
      |
      '\\' nonnewline @code
    )* '"';
``` -/
def js_dq_str : Rx := .seqs [.fin (.cls (Cls.chr 34)) .code, .star (.alts [.leave (.leave (Common.escaped_newline) (.setEnt .internalNl)) (.emb (.cb 2)), .cls (Common.ws), .fin (.cls (Cls.neg (Cls.chars [9, 32, 34, 92]))) .code, .seqs [.cls (Cls.chr 92), .fin (.cls (Common.nonnewline)) .code]]), .cls (Cls.chr 34)]

/-- src/parsers/javascript.rl:82
```
  js_regex_str = '/' [^/*] ([^\r\n\f/\\] | '\\' nonnewline)* '/' @code;
``` -/
def js_regex_str : Rx := .seqs [.cls (Cls.chr 47), .cls (Cls.neg (Cls.chars [42, 47])), .star (.alts [.cls (Cls.neg (Cls.ranges [(10, 10), (12, 13), (47, 47), (92, 92)])), .seqs [.cls (Cls.chr 92), .cls (Common.nonnewline)]]), .fin (.cls (Cls.chr 47)) .code]

/-- src/parsers/javascript.rl:83
```
  js_string = js_sq_str | js_dq_str | js_regex_str;
``` -/
def js_string : Rx := .alts [js_sq_str, js_dq_str, js_regex_str]

/-- Machine 4: src/parsers/clearsilverhtml.rl:114-122.
```
  cshtml_js_line := |*
    cshtml_js_outry @{ p = ts; fret; };
    # unmodified Javascript patterns
    spaces      ${ entity = JS_SPACE; } => js_ccallback;
    js_comment;
    js_string;
    newline     ${ entity = NEWLINE;  } => js_ccallback;
    ^space      ${ entity = JS_ANY;   } => js_ccallback;
  *|;
``` -/
def cshtml_js_line : EScanner where
  pats := [
  (.fin (cshtml_js_outry) (.emb .back), .none),
  (.all (Common.spaces) (.setEnt (.own 0)), .cb 2),
  (js_comment, .none),
  (js_string, .none),
  (.all (Common.newline) (.setEnt .newline), .cb 2),
  (.all (.cls (Cls.neg (Common.space))) (.setEnt (.own 7)), .cb 2)]
  scanner := true

/-- src/parsers/clearsilverhtml.rl:125
```
  cshtml_cs_outry = '?>' @check_blank_outry @code;
``` -/
def cshtml_cs_outry : Rx := .fin (.fin (.lit [63, 62]) (.emb .outry)) .code

/-- src/parsers/clearsilver.rl:47
```
  cs_comment = '#' @comment nonnewline*;
``` -/
def cs_comment : Rx := .seqs [.fin (.cls (Cls.chr 35)) .comment, .star (.cls (Common.nonnewline))]

/-- src/parsers/clearsilver.rl:49
```
  cs_string = '"' @code ([^\r\n\f"\\] | '\\' nonnewline)* '"';
``` -/
def cs_string : Rx := .seqs [.fin (.cls (Cls.chr 34)) .code, .star (.alts [.cls (Cls.neg (Cls.ranges [(10, 10), (12, 13), (34, 34), (92, 92)])), .seqs [.cls (Cls.chr 92), .cls (Common.nonnewline)]]), .cls (Cls.chr 34)]

/-- Machine 5: src/parsers/clearsilverhtml.rl:126-134.
```
  cshtml_cs_line := |*
    cshtml_cs_outry @{ p = ts; fret; };
    # unmodified Clearsilver patterns
    spaces      ${ entity = CS_SPACE; } => cs_ccallback;
    cs_comment;
    cs_string;
    newline     ${ entity = NEWLINE;  } => cs_ccallback;
    ^space      ${ entity = CS_ANY;   } => cs_ccallback;
  *|;
``` -/
def cshtml_cs_line : EScanner where
  pats := [
  (.fin (cshtml_cs_outry) (.emb .back), .none),
  (.all (Common.spaces) (.setEnt (.own 0)), .cb 3),
  (cs_comment, .none),
  (cs_string, .none),
  (.all (Common.newline) (.setEnt .newline), .cb 3),
  (.all (.cls (Cls.neg (Common.space))) (.setEnt (.own 3)), .cb 3)]
  scanner := true

/-- src/parsers/clearsilverhtml.rl:100
```
  cshtml_css_entry = '<' /style/i [^>]+ :>> 'text/css' [^>]+ '>' @code;
``` -/
def cshtml_css_entry : Rx := .seqs [.guard (.seqs [.cls (Cls.chr 60), .seqs [.cls (Cls.chars [83, 115]), .cls (Cls.chars [84, 116]), .cls (Cls.chars [89, 121]), .cls (Cls.chars [76, 108]), .cls (Cls.chars [69, 101])], .plus (.cls (Cls.neg (Cls.chr 62)))]) (.lit [116, 101, 120, 116, 47, 99, 115, 115]), .plus (.cls (Cls.neg (Cls.chr 62))), .fin (.cls (Cls.chr 62)) .code]

/-- src/parsers/clearsilverhtml.rl:112
```
  cshtml_js_entry = '<' /script/i [^>]+ :>> 'text/javascript' [^>]+ '>' @code;
``` -/
def cshtml_js_entry : Rx := .seqs [.guard (.seqs [.cls (Cls.chr 60), .seqs [.cls (Cls.chars [83, 115]), .cls (Cls.chars [67, 99]), .cls (Cls.chars [82, 114]), .cls (Cls.chars [73, 105]), .cls (Cls.chars [80, 112]), .cls (Cls.chars [84, 116])], .plus (.cls (Cls.neg (Cls.chr 62)))]) (.lit [116, 101, 120, 116, 47, 106, 97, 118, 97, 115, 99, 114, 105, 112, 116]), .plus (.cls (Cls.neg (Cls.chr 62))), .fin (.cls (Cls.chr 62)) .code]

/-- src/parsers/clearsilverhtml.rl:124
```
  cshtml_cs_entry = '<?cs' @code;
``` -/
def cshtml_cs_entry : Rx := .fin (.lit [60, 63, 99, 115]) .code

/-- Machine 6: src/parsers/clearsilverhtml.rl:136-150.
```
  cshtml_line := |*
    cshtml_css_entry @{ entity = CHECK_BLANK_ENTRY; } @cshtml_ccallback
      @{ saw(CSS_LANG); } => { fcall cshtml_css_line; };
    cshtml_js_entry @{ entity = CHECK_BLANK_ENTRY; } @cshtml_ccallback
      @{ saw(JS_LANG); } => { fcall cshtml_js_line; };
    cshtml_cs_entry @{ entity = CHECK_BLANK_ENTRY; } @cshtml_ccallback
      @{ saw(CS_LANG); } => { fcall cshtml_cs_line; };
    # standard CSHTML patterns
    spaces       ${ entity = CSHTML_SPACE; } => cshtml_ccallback;
    '<!--'       @comment                    => { fgoto cshtml_comment; };
    '\''         @code                       => { fgoto cshtml_sq_str;  };
    '"'          @code                       => { fgoto cshtml_dq_str;  };
    newline      ${ entity = NEWLINE;      } => cshtml_ccallback;
    ^space       ${ entity = CSHTML_ANY;   } => cshtml_ccallback;
  *|;
``` -/
def cshtml_line : EScanner where
  pats := [
  (.fin (.fin (.fin (cshtml_css_entry) (.setEnt .checkBlank)) .cb) (.emb (.saw 1)), .call 3),
  (.fin (.fin (.fin (cshtml_js_entry) (.setEnt .checkBlank)) .cb) (.emb (.saw 2)), .call 4),
  (.fin (.fin (.fin (cshtml_cs_entry) (.setEnt .checkBlank)) .cb) (.emb (.saw 3)), .call 5),
  (.all (Common.spaces) (.setEnt (.own 0)), .cb 0),
  (.fin (.lit [60, 33, 45, 45]) .comment, .goto 0),
  (.fin (.cls (Cls.chr 39)) .code, .goto 1),
  (.fin (.cls (Cls.chr 34)) .code, .goto 2),
  (.all (Common.newline) (.setEnt .newline), .cb 0),
  (.all (.cls (Cls.neg (Common.space))) (.setEnt (.own 5)), .cb 0)]
  scanner := true

/-- src/parsers/clearsilverhtml.rl:160
```
  cshtml_css_outry_entity = '</' /style/i ws_or_inl* '>';
``` -/
def cshtml_css_outry_entity : Rx := .seqs [.lit [60, 47], .seqs [.cls (Cls.chars [83, 115]), .cls (Cls.chars [84, 116]), .cls (Cls.chars [89, 121]), .cls (Cls.chars [76, 108]), .cls (Cls.chars [69, 101])], .star (ws_or_inl), .cls (Cls.chr 62)]

/-- src/parsers/css.rl:94
```
  css_comment_entity = '/*' any* :>> '*/';
``` -/
def css_comment_entity : Rx := .guard (.seqs [.lit [47, 42], .star (.cls (Cls.any))]) (.lit [42, 47])

/-- Machine 7: src/parsers/clearsilverhtml.rl:161-168.
```
  cshtml_css_entity := |*
    cshtml_css_outry_entity @{ fret; };
    # unmodified CSS patterns
    space+             ${ entity = CSS_SPACE;   } => css_ecallback;
    css_comment_entity ${ entity = CSS_COMMENT; } => css_ecallback;
    # TODO:
    ^space;
  *|;
``` -/
def cshtml_css_entity : EScanner where
  pats := [
  (.fin (cshtml_css_outry_entity) (.emb .ret), .none),
  (.all (.plus (.cls (Common.space))) (.setEnt (.own 0)), .ecb 1),
  (.all (css_comment_entity) (.setEnt (.own 1)), .ecb 1),
  (.cls (Cls.neg (Common.space)), .none)]
  scanner := true

/-- src/parsers/clearsilverhtml.rl:171
```
  cshtml_js_outry_entity = '</' /script/i ws_or_inl* '>';
``` -/
def cshtml_js_outry_entity : Rx := .seqs [.lit [60, 47], .seqs [.cls (Cls.chars [83, 115]), .cls (Cls.chars [67, 99]), .cls (Cls.chars [82, 114]), .cls (Cls.chars [73, 105]), .cls (Cls.chars [80, 112]), .cls (Cls.chars [84, 116])], .star (ws_or_inl), .cls (Cls.chr 62)]

/-- src/parsers/javascript.rl:99
```
  js_line_comment_entity = '//' nonnewline*;
``` -/
def js_line_comment_entity : Rx := .seqs [.lit [47, 47], .star (.cls (Common.nonnewline))]

/-- src/parsers/javascript.rl:100
```
  js_block_comment_entity = '/*' any* :>> '*/';
``` -/
def js_block_comment_entity : Rx := .guard (.seqs [.lit [47, 42], .star (.cls (Cls.any))]) (.lit [42, 47])

/-- src/parsers/javascript.rl:101
```
  js_comment_entity = js_line_comment_entity | js_block_comment_entity;
``` -/
def js_comment_entity : Rx := .alts [js_line_comment_entity, js_block_comment_entity]

/-- Machine 8: src/parsers/clearsilverhtml.rl:172-179.
```
  cshtml_js_entity := |*
    cshtml_js_outry_entity @{ fret; };
    # unmodified Javascript patterns
    space+            ${ entity = JS_SPACE;   } => js_ecallback;
    js_comment_entity ${ entity = JS_COMMENT; } => js_ecallback;
    # TODO:
    ^space;
  *|;
``` -/
def cshtml_js_entity : EScanner where
  pats := [
  (.fin (cshtml_js_outry_entity) (.emb .ret), .none),
  (.all (.plus (.cls (Common.space))) (.setEnt (.own 0)), .ecb 2),
  (.all (js_comment_entity) (.setEnt (.own 1)), .ecb 2),
  (.cls (Cls.neg (Common.space)), .none)]
  scanner := true

/-- src/parsers/clearsilverhtml.rl:182
```
  cshtml_cs_outry_entity = '?>';
``` -/
def cshtml_cs_outry_entity : Rx := .lit [63, 62]

/-- src/parsers/clearsilver.rl:65
```
  cs_comment_entity = '#' nonnewline*;
``` -/
def cs_comment_entity : Rx := .seqs [.cls (Cls.chr 35), .star (.cls (Common.nonnewline))]

/-- Machine 9: src/parsers/clearsilverhtml.rl:183-190.
```
  cshtml_cs_entity := |*
    cshtml_cs_outry_entity @{ fret; };
    # unmodified CS patterns
    space+            ${ entity = CS_SPACE;   } => cs_ecallback;
    cs_comment_entity ${ entity = CS_COMMENT; } => cs_ecallback;
    # TODO:
    ^space;
  *|;
``` -/
def cshtml_cs_entity : EScanner where
  pats := [
  (.fin (cshtml_cs_outry_entity) (.emb .ret), .none),
  (.all (.plus (.cls (Common.space))) (.setEnt (.own 0)), .ecb 3),
  (.all (cs_comment_entity) (.setEnt (.own 1)), .ecb 3),
  (.cls (Cls.neg (Common.space)), .none)]
  scanner := true

/-- src/parsers/clearsilverhtml.rl:159
```
  cshtml_css_entry_entity = '<' /style/i [^>]+ :>> 'text/css' [^>]+ '>';
``` -/
def cshtml_css_entry_entity : Rx := .seqs [.guard (.seqs [.cls (Cls.chr 60), .seqs [.cls (Cls.chars [83, 115]), .cls (Cls.chars [84, 116]), .cls (Cls.chars [89, 121]), .cls (Cls.chars [76, 108]), .cls (Cls.chars [69, 101])], .plus (.cls (Cls.neg (Cls.chr 62)))]) (.lit [116, 101, 120, 116, 47, 99, 115, 115]), .plus (.cls (Cls.neg (Cls.chr 62))), .cls (Cls.chr 62)]

/-- src/parsers/clearsilverhtml.rl:170
```
  cshtml_js_entry_entity = '<' /script/i [^>]+ :>> 'text/javascript' [^>]+ '>';
``` -/
def cshtml_js_entry_entity : Rx := .seqs [.guard (.seqs [.cls (Cls.chr 60), .seqs [.cls (Cls.chars [83, 115]), .cls (Cls.chars [67, 99]), .cls (Cls.chars [82, 114]), .cls (Cls.chars [73, 105]), .cls (Cls.chars [80, 112]), .cls (Cls.chars [84, 116])], .plus (.cls (Cls.neg (Cls.chr 62)))]) (.lit [116, 101, 120, 116, 47, 106, 97, 118, 97, 115, 99, 114, 105, 112, 116]), .plus (.cls (Cls.neg (Cls.chr 62))), .cls (Cls.chr 62)]

/-- src/parsers/clearsilverhtml.rl:181
```
  cshtml_cs_entry_entity = '<?cs';
``` -/
def cshtml_cs_entry_entity : Rx := .lit [60, 63, 99, 115]

/-- src/parsers/clearsilverhtml.rl:192
```
  cshtml_comment_entity = '<!--' any* :>> '-->';
``` -/
def cshtml_comment_entity : Rx := .guard (.seqs [.lit [60, 33, 45, 45], .star (.cls (Cls.any))]) (.lit [45, 45, 62])

/-- Machine 10: src/parsers/clearsilverhtml.rl:194-204.
```
  cshtml_entity := |*
    # TODO: cshtml_ecallback for cshtml_*_{entry,outry}_entity
    cshtml_css_entry_entity => { fcall cshtml_css_entity; };
    cshtml_js_entry_entity  => { fcall cshtml_js_entity;  };
    cshtml_cs_entry_entity  => { fcall cshtml_cs_entity;  };
    # standard CSHTML patterns
    space+                ${ entity = CSHTML_SPACE;   } => cshtml_ecallback;
    cshtml_comment_entity ${ entity = CSHTML_COMMENT; } => cshtml_ecallback;
    # TODO:
    ^space;
  *|;
``` -/
def cshtml_entity : EScanner where
  pats := [
  (cshtml_css_entry_entity, .call 7),
  (cshtml_js_entry_entity, .call 8),
  (cshtml_cs_entry_entity, .call 9),
  (.all (.plus (.cls (Common.space))) (.setEnt (.own 0)), .ecb 0),
  (.all (cshtml_comment_entity) (.setEnt (.own 1)), .ecb 0),
  (.cls (Cls.neg (Common.space)), .none)]
  scanner := true

/-- `parse_cshtml`, src/parsers/clearsilverhtml.rl:220-235; the callbacks are src/parsers/clearsilverhtml.rl:40-57, src/parsers/css.rl:33-47, src/parsers/javascript.rl:33-47, src/parsers/clearsilver.rl:31-45. -/
def parser : EParser where
  name := "parse_cshtml"
  langs := ["html", "css", "javascript", "clearsilver"]
  sws := [
    [((.own 0), .ls), ((.own 5), .code), (.internalNl, .embInternalNewline), (.newline, .embNewline), (.checkBlank, .checkBlank)],
    [((.own 0), .ls), ((.own 9), .code), (.internalNl, .internalNewline), (.newline, .newline)],
    [((.own 0), .ls), ((.own 7), .code), (.internalNl, .internalNewline), (.newline, .newline)],
    [((.own 0), .ls), ((.own 3), .code), (.internalNl, .internalNewline), (.newline, .newline)]]
  machs := [cshtml_comment, cshtml_sq_str, cshtml_dq_str, cshtml_css_line, cshtml_js_line, cshtml_cs_line, cshtml_line, cshtml_css_entity, cshtml_js_entity, cshtml_cs_entity, cshtml_entity]
  line := 6
  entity := 10

end Ohcount.Gram.Emb.Clearsilverhtml

