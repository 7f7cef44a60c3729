import Verif.Gram.Common
import Verif.RagelEmbed

/-! Parsers with embedded languages, transcribed from src/parsers/: cs_aspx.rl, rhtml.rl, vb_aspx.rl. Generated by tools/gen_embedded.py. -/

/-! ### cs_aspx.rl -/

namespace Ohcount.Gram.Emb.CsAspx
open Ohcount.Ragel

/-- Machine 0: src/parsers/cs_aspx.rl:57-67. A plain machine; the alternative with the call comes first, as Ragel lets its action run first.
```
  cs_aspx_comment := (
    newline %{ entity = INTERNAL_NL; } %cs_aspx_ccallback
    |
    ws
    |
    ^(space | [\-<]) @comment
    |
    '<' '%' @{ saw(C_LANG); fcall cs_aspx_cs_line; }
    |
    '<' !'%'
  )* :>> '-->' @comment @{ fgoto cs_aspx_line; };
``` -/
def cs_aspx_comment : EScanner where
  pats := [
  (.guard (.star (.alts [.seqs [.cls (Cls.chr 60), .fin (.cls (Cls.chr 37)) (.emb (.sawCall 3 5))], .leave (.leave (Common.newline) (.setEnt .internalNl)) .cb, .cls (Common.ws), .fin (.cls (Cls.neg (Cls.union (Common.space) (Cls.chars [45, 60])))) .comment, .seqs [.cls (Cls.chr 60), .opt (.seqs [.alts [.cls (Cls.neg (Cls.chr 37)), .seqs [.cls (Cls.chr 37), .cls (Cls.any)]], .star (.cls (Cls.any))])]])) (.fin (.fin (.lit [45, 45, 62]) .comment) (.emb (.goto 6))), .none)]
  scanner := false

/-- Machine 1: src/parsers/cs_aspx.rl:69-81. A plain machine; the alternative with the call comes first, as Ragel lets its action run first.
```
  cs_aspx_sq_str := (
    newline %{ entity = INTERNAL_NL; } %cs_aspx_ccallback
    |
    ws
    |
    [^\r\n\f\t '\\<] @code
    |
    '\\' nonnewline @code
    |
    '<' '%' @{ saw(C_LANG); fcall cs_aspx_cs_line; }
    |
    '<' !'%'
  )* '\'' @{ fgoto cs_aspx_line; };
``` -/
def cs_aspx_sq_str : EScanner where
  pats := [
  (.seqs [.star (.alts [.seqs [.cls (Cls.chr 60), .fin (.cls (Cls.chr 37)) (.emb (.sawCall 3 5))], .leave (.leave (Common.newline) (.setEnt .internalNl)) .cb, .cls (Common.ws), .fin (.cls (Cls.neg (Cls.ranges [(9, 10), (12, 13), (32, 32), (39, 39), (60, 60), (92, 92)]))) .code, .seqs [.cls (Cls.chr 92), .fin (.cls (Common.nonnewline)) .code], .seqs [.cls (Cls.chr 60), .opt (.seqs [.alts [.cls (Cls.neg (Cls.chr 37)), .seqs [.cls (Cls.chr 37), .cls (Cls.any)]], .star (.cls (Cls.any))])]]), .fin (.cls (Cls.chr 39)) (.emb (.goto 6))], .none)]
  scanner := false

/-- Machine 2: src/parsers/cs_aspx.rl:82-94. A plain machine; the alternative with the call comes first, as Ragel lets its action run first.
```
  cs_aspx_dq_str := (
    newline %{ entity = INTERNAL_NL; } %cs_aspx_ccallback
    |
    ws
    |
    [^\r\n\f\t "\\<] @code
    |
    '\\' nonnewline @code
    |
    '<' '%' @{ saw(C_LANG); fcall cs_aspx_cs_line; }
    |
    '<' !'%'
  )* '"' @{ fgoto cs_aspx_line; };
``` -/
def cs_aspx_dq_str : EScanner where
  pats := [
  (.seqs [.star (.alts [.seqs [.cls (Cls.chr 60), .fin (.cls (Cls.chr 37)) (.emb (.sawCall 3 5))], .leave (.leave (Common.newline) (.setEnt .internalNl)) .cb, .cls (Common.ws), .fin (.cls (Cls.neg (Cls.ranges [(9, 10), (12, 13), (32, 32), (34, 34), (60, 60), (92, 92)]))) .code, .seqs [.cls (Cls.chr 92), .fin (.cls (Common.nonnewline)) .code], .seqs [.cls (Cls.chr 60), .opt (.seqs [.alts [.cls (Cls.neg (Cls.chr 37)), .seqs [.cls (Cls.chr 37), .cls (Cls.any)]], .star (.cls (Cls.any))])]]), .fin (.cls (Cls.chr 34)) (.emb (.goto 6))], .none)]
  scanner := false

/-- src/parsers/cs_aspx.rl:96
```
  ws_or_inl = (ws | newline @{ entity = INTERNAL_NL; } %cs_aspx_ccallback);
``` -/
def ws_or_inl : Rx := .alts [.cls (Common.ws), .leave (.fin (Common.newline) (.setEnt .internalNl)) .cb]

/-- src/parsers/cs_aspx.rl:99
```
  cs_aspx_css_outry = '</' /style/i ws_or_inl* '>' @check_blank_outry @code;
``` -/
def cs_aspx_css_outry : Rx := .seqs [.lit [60, 47], .seqs [.cls (Cls.chars [83, 115]), .cls (Cls.chars [84, 116]), .cls (Cls.chars [89, 121]), .cls (Cls.chars [76, 108]), .cls (Cls.chars [69, 101])], .star (ws_or_inl), .fin (.fin (.cls (Cls.chr 62)) (.emb .outry)) .code]

/-- src/parsers/css.rl:49-56
```
  css_comment =
    '/*' @comment (
      newline %{ entity = INTERNAL_NL; } %css_ccallback
      |
      ws
      |
      (nonnewline - ws) @comment
    )* :>> '*/';
``` -/
def css_comment : Rx := .guard (.seqs [.fin (.lit [47, 42]) .comment, .star (.alts [.leave (.leave (Common.newline) (.setEnt .internalNl)) (.emb (.cb 1)), .cls (Common.ws), .fin (.cls (Cls.diff (Common.nonnewline) (Common.ws))) .comment])]) (.lit [42, 47])

/-- src/parsers/css.rl:58-67
```
  css_sq_str =
    '\'' @code (
      newline %{ entity = INTERNAL_NL; } %css_ccallback
      |
      ws
      |
      [^\r\n\f\t '\\] @code
      |
      '\\' nonnewline @code
    )* '\'';
``` -/
def css_sq_str : Rx := .seqs [.fin (.cls (Cls.chr 39)) .code, .star (.alts [.leave (.leave (Common.newline) (.setEnt .internalNl)) (.emb (.cb 1)), .cls (Common.ws), .fin (.cls (Cls.neg (Cls.ranges [(9, 10), (12, 13), (32, 32), (39, 39), (92, 92)]))) .code, .seqs [.cls (Cls.chr 92), .fin (.cls (Common.nonnewline)) .code]]), .cls (Cls.chr 39)]

/-- src/parsers/css.rl:68-77
```
  css_dq_str =
    '"' @code (
      newline %{ entity = INTERNAL_NL; } %css_ccallback
      |
      ws
      |
      [^\r\n\f\t "\\] @code
      |
      '\\' nonnewline @code
    )* '"';
``` -/
def css_dq_str : Rx := .seqs [.fin (.cls (Cls.chr 34)) .code, .star (.alts [.leave (.leave (Common.newline) (.setEnt .internalNl)) (.emb (.cb 1)), .cls (Common.ws), .fin (.cls (Cls.neg (Cls.ranges [(9, 10), (12, 13), (32, 32), (34, 34), (92, 92)]))) .code, .seqs [.cls (Cls.chr 92), .fin (.cls (Common.nonnewline)) .code]]), .cls (Cls.chr 34)]

/-- src/parsers/css.rl:78
```
  css_string = css_sq_str | css_dq_str;
``` -/
def css_string : Rx := .alts [css_sq_str, css_dq_str]

/-- Machine 3: src/parsers/cs_aspx.rl:100-108.
```
  cs_aspx_css_line := |*
    cs_aspx_css_outry @{ p = ts; fret; };
    # unmodified CSS patterns
    spaces      ${ entity = CSS_SPACE; } => css_ccallback;
    css_comment;
    css_string;
    newline     ${ entity = NEWLINE;   } => css_ccallback;
    ^space      ${ entity = CSS_ANY;   } => css_ccallback;
  *|;
``` -/
def cs_aspx_css_line : EScanner where
  pats := [
  (.fin (cs_aspx_css_outry) (.emb .back), .none),
  (.all (Common.spaces) (.setEnt (.own 0)), .cb 1),
  (css_comment, .none),
  (css_string, .none),
  (.all (Common.newline) (.setEnt .newline), .cb 1),
  (.all (.cls (Cls.neg (Common.space))) (.setEnt (.own 9)), .cb 1)]
  scanner := true

/-- src/parsers/cs_aspx.rl:111
```
  cs_aspx_js_outry = '</' /script/i ws_or_inl* '>' @check_blank_outry @code;
``` -/
def cs_aspx_js_outry : Rx := .seqs [.lit [60, 47], .seqs [.cls (Cls.chars [83, 115]), .cls (Cls.chars [67, 99]), .cls (Cls.chars [82, 114]), .cls (Cls.chars [73, 105]), .cls (Cls.chars [80, 112]), .cls (Cls.chars [84, 116])], .star (ws_or_inl), .fin (.fin (.cls (Cls.chr 62)) (.emb .outry)) .code]

/-- src/parsers/javascript.rl:49
```
  js_line_comment = '//' @comment nonnewline*;
``` -/
def js_line_comment : Rx := .seqs [.fin (.lit [47, 47]) .comment, .star (.cls (Common.nonnewline))]

/-- src/parsers/javascript.rl:50-57
```
  js_block_comment =
    '/*' @comment (
      newline %{ entity = INTERNAL_NL; } %js_ccallback
      |
      ws
      |
      (nonnewline - ws) @comment
    )* :>> '*/';
``` -/
def js_block_comment : Rx := .guard (.seqs [.fin (.lit [47, 42]) .comment, .star (.alts [.leave (.leave (Common.newline) (.setEnt .internalNl)) (.emb (.cb 2)), .cls (Common.ws), .fin (.cls (Cls.diff (Common.nonnewline) (Common.ws))) .comment])]) (.lit [42, 47])

/-- src/parsers/javascript.rl:58
```
  js_comment = js_line_comment | js_block_comment;
``` -/
def js_comment : Rx := .alts [js_line_comment, js_block_comment]

/-- src/parsers/javascript.rl:62-71
```
  js_sq_str =
    '\'' @code (
      escaped_newline %{ entity = INTERNAL_NL; } %js_ccallback
      |
      ws
      |
      [^\t '\\] @code
      |
      '\\' nonnewline @code
    )* '\'';
``` -/
def js_sq_str : Rx := .seqs [.fin (.cls (Cls.chr 39)) .code, .star (.alts [.leave (.leave (Common.escaped_newline) (.setEnt .internalNl)) (.emb (.cb 2)), .cls (Common.ws), .fin (.cls (Cls.neg (Cls.chars [9, 32, 39, 92]))) .code, .seqs [.cls (Cls.chr 92), .fin (.cls (Common.nonnewline)) .code]]), .cls (Cls.chr 39)]

/-- src/parsers/javascript.rl:72-81
```
  js_dq_str =
    '"' @code (
      escaped_newline %{ entity = INTERNAL_NL; } %js_ccallback
      |
      ws
      |
      [^\t "\\] @code
      |
      '\\' nonnewline @code
    )* '"';
``` -/
def js_dq_str : Rx := .seqs [.fin (.cls (Cls.chr 34)) .code, .star (.alts [.leave (.leave (Common.escaped_newline) (.setEnt .internalNl)) (.emb (.cb 2)), .cls (Common.ws), .fin (.cls (Cls.neg (Cls.chars [9, 32, 34, 92]))) .code, .seqs [.cls (Cls.chr 92), .fin (.cls (Common.nonnewline)) .code]]), .cls (Cls.chr 34)]

/-- src/parsers/javascript.rl:82
```
  js_regex_str = '/' [^/*] ([^\r\n\f/\\] | '\\' nonnewline)* '/' @code;
``` -/
def js_regex_str : Rx := .seqs [.cls (Cls.chr 47), .cls (Cls.neg (Cls.chars [42, 47])), .star (.alts [.cls (Cls.neg (Cls.ranges [(10, 10), (12, 13), (47, 47), (92, 92)])), .seqs [.cls (Cls.chr 92), .cls (Common.nonnewline)]]), .fin (.cls (Cls.chr 47)) .code]

/-- src/parsers/javascript.rl:83
```
  js_string = js_sq_str | js_dq_str | js_regex_str;
``` -/
def js_string : Rx := .alts [js_sq_str, js_dq_str, js_regex_str]

/-- Machine 4: src/parsers/cs_aspx.rl:112-120.
```
  cs_aspx_js_line := |*
    cs_aspx_js_outry @{ p = ts; fret; };
    # unmodified Javascript patterns
    spaces     ${ entity = JS_SPACE; } => js_ccallback;
    js_comment;
    js_string;
    newline    ${ entity = NEWLINE;  } => js_ccallback;
    ^space     ${ entity = JS_ANY;   } => js_ccallback;
  *|;
``` -/
def cs_aspx_js_line : EScanner where
  pats := [
  (.fin (cs_aspx_js_outry) (.emb .back), .none),
  (.all (Common.spaces) (.setEnt (.own 0)), .cb 2),
  (js_comment, .none),
  (js_string, .none),
  (.all (Common.newline) (.setEnt .newline), .cb 2),
  (.all (.cls (Cls.neg (Common.space))) (.setEnt (.own 7)), .cb 2)]
  scanner := true

/-- src/parsers/cs_aspx.rl:123
```
  cs_aspx_cs_outry = ('%>' | '</' /script/i ws_or_inl* '>' @check_blank_outry) @code;
``` -/
def cs_aspx_cs_outry : Rx := .fin (.alts [.lit [37, 62], .seqs [.lit [60, 47], .seqs [.cls (Cls.chars [83, 115]), .cls (Cls.chars [67, 99]), .cls (Cls.chars [82, 114]), .cls (Cls.chars [73, 105]), .cls (Cls.chars [80, 112]), .cls (Cls.chars [84, 116])], .star (ws_or_inl), .fin (.cls (Cls.chr 62)) (.emb .outry)]]) .code

/-- src/parsers/c.rl:49-56
```
  c_line_comment =
    '//' @comment (
      escaped_newline %{ entity = INTERNAL_NL; } %c_ccallback
      |
      ws
      |
      (nonnewline - ws) @comment
    )*;
``` -/
def c_line_comment : Rx := .seqs [.fin (.lit [47, 47]) .comment, .star (.alts [.leave (.leave (Common.escaped_newline) (.setEnt .internalNl)) (.emb (.cb 3)), .cls (Common.ws), .fin (.cls (Cls.diff (Common.nonnewline) (Common.ws))) .comment])]

/-- src/parsers/c.rl:57-64
```
  c_block_comment =
    '/*' @comment (
      newline %{ entity = INTERNAL_NL; } %c_ccallback
      |
      ws
      |
      (nonnewline - ws) @comment
    )* :>> '*/';
``` -/
def c_block_comment : Rx := .guard (.seqs [.fin (.lit [47, 42]) .comment, .star (.alts [.leave (.leave (Common.newline) (.setEnt .internalNl)) (.emb (.cb 3)), .cls (Common.ws), .fin (.cls (Cls.diff (Common.nonnewline) (Common.ws))) .comment])]) (.lit [42, 47])

/-- src/parsers/c.rl:65
```
  c_comment = c_line_comment | c_block_comment;
``` -/
def c_comment : Rx := .alts [c_line_comment, c_block_comment]

/-- src/parsers/c.rl:67-76
```
  c_sq_str =
    '\'' @code (
      escaped_newline %{ entity = INTERNAL_NL; } %c_ccallback
      |
      ws
      |
      [^\t '\\] @code
      |
      '\\' nonnewline @code
    )* '\'';
``` -/
def c_sq_str : Rx := .seqs [.fin (.cls (Cls.chr 39)) .code, .star (.alts [.leave (.leave (Common.escaped_newline) (.setEnt .internalNl)) (.emb (.cb 3)), .cls (Common.ws), .fin (.cls (Cls.neg (Cls.chars [9, 32, 39, 92]))) .code, .seqs [.cls (Cls.chr 92), .fin (.cls (Common.nonnewline)) .code]]), .cls (Cls.chr 39)]

/-- src/parsers/c.rl:77-86
```
  c_dq_str =
    '"' @code (
      escaped_newline %{ entity = INTERNAL_NL; } %c_ccallback
      |
      ws
      |
      [^\t "\\] @code
      |
      '\\' nonnewline @code
    )* '"';
``` -/
def c_dq_str : Rx := .seqs [.fin (.cls (Cls.chr 34)) .code, .star (.alts [.leave (.leave (Common.escaped_newline) (.setEnt .internalNl)) (.emb (.cb 3)), .cls (Common.ws), .fin (.cls (Cls.neg (Cls.chars [9, 32, 34, 92]))) .code, .seqs [.cls (Cls.chr 92), .fin (.cls (Common.nonnewline)) .code]]), .cls (Cls.chr 34)]

/-- src/parsers/c.rl:87
```
  c_string = c_sq_str | c_dq_str;
``` -/
def c_string : Rx := .alts [c_sq_str, c_dq_str]

/-- Machine 5: src/parsers/cs_aspx.rl:124-132.
```
  cs_aspx_cs_line := |*
    cs_aspx_cs_outry @{ p = ts; fret; };
    # unmodified C patterns
    spaces        ${ entity = C_SPACE; } => c_ccallback;
    c_comment;
    c_string;
    newline       ${ entity = NEWLINE;    } => c_ccallback;
    ^space        ${ entity = C_ANY;   } => c_ccallback;
  *|;
``` -/
def cs_aspx_cs_line : EScanner where
  pats := [
  (.fin (cs_aspx_cs_outry) (.emb .back), .none),
  (.all (Common.spaces) (.setEnt (.own 0)), .cb 3),
  (c_comment, .none),
  (c_string, .none),
  (.all (Common.newline) (.setEnt .newline), .cb 3),
  (.all (.cls (Cls.neg (Common.space))) (.setEnt (.own 8)), .cb 3)]
  scanner := true

/-- src/parsers/cs_aspx.rl:98
```
  cs_aspx_css_entry = '<' /style/i [^>]+ :>> 'text/css' [^>]+ '>' @code;
``` -/
def cs_aspx_css_entry : Rx := .seqs [.guard (.seqs [.cls (Cls.chr 60), .seqs [.cls (Cls.chars [83, 115]), .cls (Cls.chars [84, 116]), .cls (Cls.chars [89, 121]), .cls (Cls.chars [76, 108]), .cls (Cls.chars [69, 101])], .plus (.cls (Cls.neg (Cls.chr 62)))]) (.lit [116, 101, 120, 116, 47, 99, 115, 115]), .plus (.cls (Cls.neg (Cls.chr 62))), .fin (.cls (Cls.chr 62)) .code]

/-- src/parsers/cs_aspx.rl:110
```
  cs_aspx_js_entry = '<' /script/i [^>]+ :>> 'text/javascript' [^>]+ '>' @code;
``` -/
def cs_aspx_js_entry : Rx := .seqs [.guard (.seqs [.cls (Cls.chr 60), .seqs [.cls (Cls.chars [83, 115]), .cls (Cls.chars [67, 99]), .cls (Cls.chars [82, 114]), .cls (Cls.chars [73, 105]), .cls (Cls.chars [80, 112]), .cls (Cls.chars [84, 116])], .plus (.cls (Cls.neg (Cls.chr 62)))]) (.lit [116, 101, 120, 116, 47, 106, 97, 118, 97, 115, 99, 114, 105, 112, 116]), .plus (.cls (Cls.neg (Cls.chr 62))), .fin (.cls (Cls.chr 62)) .code]

/-- src/parsers/cs_aspx.rl:122
```
  cs_aspx_cs_entry = ('<%' | '<' /script/i [^>]+ :>> 'server' [^>]+ '>') @code;
``` -/
def cs_aspx_cs_entry : Rx := .fin (.alts [.lit [60, 37], .seqs [.guard (.seqs [.cls (Cls.chr 60), .seqs [.cls (Cls.chars [83, 115]), .cls (Cls.chars [67, 99]), .cls (Cls.chars [82, 114]), .cls (Cls.chars [73, 105]), .cls (Cls.chars [80, 112]), .cls (Cls.chars [84, 116])], .plus (.cls (Cls.neg (Cls.chr 62)))]) (.lit [115, 101, 114, 118, 101, 114]), .plus (.cls (Cls.neg (Cls.chr 62))), .cls (Cls.chr 62)]]) .code

/-- Machine 6: src/parsers/cs_aspx.rl:134-148.
```
  cs_aspx_line := |*
    cs_aspx_css_entry @{ entity = CHECK_BLANK_ENTRY; } @cs_aspx_ccallback
      @{ saw(CSS_LANG); } => { fcall cs_aspx_css_line; };
    cs_aspx_js_entry @{ entity = CHECK_BLANK_ENTRY; } @cs_aspx_ccallback
      @{ saw(JS_LANG); } => { fcall cs_aspx_js_line; };
    cs_aspx_cs_entry @{ entity = CHECK_BLANK_ENTRY; } @cs_aspx_ccallback
      @{ saw(C_LANG); } => { fcall cs_aspx_cs_line; };
    # standard CS_ASPX patterns
    spaces       ${ entity = CS_ASPX_SPACE; } => cs_aspx_ccallback;
    '<!--'       @comment                   => { fgoto cs_aspx_comment; };
    '\''         @code                      => { fgoto cs_aspx_sq_str;  };
    '"'          @code                      => { fgoto cs_aspx_dq_str;  };
    newline      ${ entity = NEWLINE;     } => cs_aspx_ccallback;
    ^space       ${ entity = CS_ASPX_ANY;   } => cs_aspx_ccallback;
  *|;
``` -/
def cs_aspx_line : EScanner where
  pats := [
  (.fin (.fin (.fin (cs_aspx_css_entry) (.setEnt .checkBlank)) .cb) (.emb (.saw 1)), .call 3),
  (.fin (.fin (.fin (cs_aspx_js_entry) (.setEnt .checkBlank)) .cb) (.emb (.saw 2)), .call 4),
  (.fin (.fin (.fin (cs_aspx_cs_entry) (.setEnt .checkBlank)) .cb) (.emb (.saw 3)), .call 5),
  (.all (Common.spaces) (.setEnt (.own 0)), .cb 0),
  (.fin (.lit [60, 33, 45, 45]) .comment, .goto 0),
  (.fin (.cls (Cls.chr 39)) .code, .goto 1),
  (.fin (.cls (Cls.chr 34)) .code, .goto 2),
  (.all (Common.newline) (.setEnt .newline), .cb 0),
  (.all (.cls (Cls.neg (Common.space))) (.setEnt (.own 5)), .cb 0)]
  scanner := true

/-- src/parsers/cs_aspx.rl:158
```
  cs_aspx_css_outry_entity = '</' /style/i ws_or_inl* '>';
``` -/
def cs_aspx_css_outry_entity : Rx := .seqs [.lit [60, 47], .seqs [.cls (Cls.chars [83, 115]), .cls (Cls.chars [84, 116]), .cls (Cls.chars [89, 121]), .cls (Cls.chars [76, 108]), .cls (Cls.chars [69, 101])], .star (ws_or_inl), .cls (Cls.chr 62)]

/-- src/parsers/css.rl:94
```
  css_comment_entity = '/*' any* :>> '*/';
``` -/
def css_comment_entity : Rx := .guard (.seqs [.lit [47, 42], .star (.cls (Cls.any))]) (.lit [42, 47])

/-- Machine 7: src/parsers/cs_aspx.rl:159-166.
```
  cs_aspx_css_entity := |*
    cs_aspx_css_outry_entity @{ fret; };
    # unmodified CSS patterns
    space+             ${ entity = CSS_SPACE;   } => css_ecallback;
    css_comment_entity ${ entity = CSS_COMMENT; } => css_ecallback;
    # TODO:
    ^space;
  *|;
``` -/
def cs_aspx_css_entity : EScanner where
  pats := [
  (.fin (cs_aspx_css_outry_entity) (.emb .ret), .none),
  (.all (.plus (.cls (Common.space))) (.setEnt (.own 0)), .ecb 1),
  (.all (css_comment_entity) (.setEnt (.own 1)), .ecb 1),
  (.cls (Cls.neg (Common.space)), .none)]
  scanner := true

/-- src/parsers/cs_aspx.rl:169
```
  cs_aspx_js_outry_entity = '</' /script/i ws_or_inl* '>';
``` -/
def cs_aspx_js_outry_entity : Rx := .seqs [.lit [60, 47], .seqs [.cls (Cls.chars [83, 115]), .cls (Cls.chars [67, 99]), .cls (Cls.chars [82, 114]), .cls (Cls.chars [73, 105]), .cls (Cls.chars [80, 112]), .cls (Cls.chars [84, 116])], .star (ws_or_inl), .cls (Cls.chr 62)]

/-- src/parsers/javascript.rl:99
```
  js_line_comment_entity = '//' nonnewline*;
``` -/
def js_line_comment_entity : Rx := .seqs [.lit [47, 47], .star (.cls (Common.nonnewline))]

/-- src/parsers/javascript.rl:100
```
  js_block_comment_entity = '/*' any* :>> '*/';
``` -/
def js_block_comment_entity : Rx := .guard (.seqs [.lit [47, 42], .star (.cls (Cls.any))]) (.lit [42, 47])

/-- src/parsers/javascript.rl:101
```
  js_comment_entity = js_line_comment_entity | js_block_comment_entity;
``` -/
def js_comment_entity : Rx := .alts [js_line_comment_entity, js_block_comment_entity]

/-- Machine 8: src/parsers/cs_aspx.rl:170-177.
```
  cs_aspx_js_entity := |*
    cs_aspx_js_outry_entity @{ fret; };
    # unmodified Javascript patterns
    space+            ${ entity = JS_SPACE;   } => js_ecallback;
    js_comment_entity ${ entity = JS_COMMENT; } => js_ecallback;
    # TODO:
    ^space;
  *|;
``` -/
def cs_aspx_js_entity : EScanner where
  pats := [
  (.fin (cs_aspx_js_outry_entity) (.emb .ret), .none),
  (.all (.plus (.cls (Common.space))) (.setEnt (.own 0)), .ecb 2),
  (.all (js_comment_entity) (.setEnt (.own 1)), .ecb 2),
  (.cls (Cls.neg (Common.space)), .none)]
  scanner := true

/-- src/parsers/cs_aspx.rl:180
```
  cs_aspx_cs_outry_entity = ('%>' | '</' /script/i ws_or_inl* '>' @check_blank_outry) @code;
``` -/
def cs_aspx_cs_outry_entity : Rx := .fin (.alts [.lit [37, 62], .seqs [.lit [60, 47], .seqs [.cls (Cls.chars [83, 115]), .cls (Cls.chars [67, 99]), .cls (Cls.chars [82, 114]), .cls (Cls.chars [73, 105]), .cls (Cls.chars [80, 112]), .cls (Cls.chars [84, 116])], .star (ws_or_inl), .fin (.cls (Cls.chr 62)) (.emb .outry)]]) .code

/-- src/parsers/c.rl:103
```
  c_line_comment_entity = '//' (escaped_newline | nonnewline)*;
``` -/
def c_line_comment_entity : Rx := .seqs [.lit [47, 47], .star (.alts [Common.escaped_newline, .cls (Common.nonnewline)])]

/-- src/parsers/c.rl:104
```
  c_block_comment_entity = '/*' any* :>> '*/';
``` -/
def c_block_comment_entity : Rx := .guard (.seqs [.lit [47, 42], .star (.cls (Cls.any))]) (.lit [42, 47])

/-- src/parsers/c.rl:105
```
  c_comment_entity = c_line_comment_entity | c_block_comment_entity;
``` -/
def c_comment_entity : Rx := .alts [c_line_comment_entity, c_block_comment_entity]

/-- Machine 9: src/parsers/cs_aspx.rl:181-188.
```
  cs_aspx_cs_entity := |*
    cs_aspx_cs_outry_entity @{ fret; };
    # unmodified C patterns
    space+              ${ entity = C_SPACE;   } => c_ecallback;
    c_comment_entity ${ entity = C_COMMENT; } => c_ecallback;
    # TODO:
    ^space;
  *|;
``` -/
def cs_aspx_cs_entity : EScanner where
  pats := [
  (.fin (cs_aspx_cs_outry_entity) (.emb .ret), .none),
  (.all (.plus (.cls (Common.space))) (.setEnt (.own 0)), .ecb 3),
  (.all (c_comment_entity) (.setEnt (.own 1)), .ecb 3),
  (.cls (Cls.neg (Common.space)), .none)]
  scanner := true

/-- src/parsers/cs_aspx.rl:157
```
  cs_aspx_css_entry_entity = '<' /style/i [^>]+ :>> 'text/css' [^>]+ '>';
``` -/
def cs_aspx_css_entry_entity : Rx := .seqs [.guard (.seqs [.cls (Cls.chr 60), .seqs [.cls (Cls.chars [83, 115]), .cls (Cls.chars [84, 116]), .cls (Cls.chars [89, 121]), .cls (Cls.chars [76, 108]), .cls (Cls.chars [69, 101])], .plus (.cls (Cls.neg (Cls.chr 62)))]) (.lit [116, 101, 120, 116, 47, 99, 115, 115]), .plus (.cls (Cls.neg (Cls.chr 62))), .cls (Cls.chr 62)]

/-- src/parsers/cs_aspx.rl:168
```
  cs_aspx_js_entry_entity = '<' /script/i [^>]+ :>> 'text/javascript' [^>]+ '>';
``` -/
def cs_aspx_js_entry_entity : Rx := .seqs [.guard (.seqs [.cls (Cls.chr 60), .seqs [.cls (Cls.chars [83, 115]), .cls (Cls.chars [67, 99]), .cls (Cls.chars [82, 114]), .cls (Cls.chars [73, 105]), .cls (Cls.chars [80, 112]), .cls (Cls.chars [84, 116])], .plus (.cls (Cls.neg (Cls.chr 62)))]) (.lit [116, 101, 120, 116, 47, 106, 97, 118, 97, 115, 99, 114, 105, 112, 116]), .plus (.cls (Cls.neg (Cls.chr 62))), .cls (Cls.chr 62)]

/-- src/parsers/cs_aspx.rl:179
```
  cs_aspx_cs_entry_entity = ('<%' | '<' /script/i [^>]+ :>> 'server' [^>]+ '>') @code;
``` -/
def cs_aspx_cs_entry_entity : Rx := .fin (.alts [.lit [60, 37], .seqs [.guard (.seqs [.cls (Cls.chr 60), .seqs [.cls (Cls.chars [83, 115]), .cls (Cls.chars [67, 99]), .cls (Cls.chars [82, 114]), .cls (Cls.chars [73, 105]), .cls (Cls.chars [80, 112]), .cls (Cls.chars [84, 116])], .plus (.cls (Cls.neg (Cls.chr 62)))]) (.lit [115, 101, 114, 118, 101, 114]), .plus (.cls (Cls.neg (Cls.chr 62))), .cls (Cls.chr 62)]]) .code

/-- src/parsers/cs_aspx.rl:190
```
  cs_aspx_comment_entity = '<!--' any* :>> '-->';
``` -/
def cs_aspx_comment_entity : Rx := .guard (.seqs [.lit [60, 33, 45, 45], .star (.cls (Cls.any))]) (.lit [45, 45, 62])

/-- Machine 10: src/parsers/cs_aspx.rl:192-202.
```
  cs_aspx_entity := |*
    # TODO: cs_aspx_ecallback for cs_aspx_*_{entry,outry}_entity
    cs_aspx_css_entry_entity  => { fcall cs_aspx_css_entity;  };
    cs_aspx_js_entry_entity   => { fcall cs_aspx_js_entity;   };
    cs_aspx_cs_entry_entity => { fcall cs_aspx_cs_entity; };
    # standard CS_ASPX patterns
    space+               ${ entity = CS_ASPX_SPACE;   } => cs_aspx_ecallback;
    cs_aspx_comment_entity ${ entity = CS_ASPX_COMMENT; } => cs_aspx_ecallback;
    # TODO:
    ^space;
  *|;
``` -/
def cs_aspx_entity : EScanner where
  pats := [
  (cs_aspx_css_entry_entity, .call 7),
  (cs_aspx_js_entry_entity, .call 8),
  (cs_aspx_cs_entry_entity, .call 9),
  (.all (.plus (.cls (Common.space))) (.setEnt (.own 0)), .ecb 0),
  (.all (cs_aspx_comment_entity) (.setEnt (.own 1)), .ecb 0),
  (.cls (Cls.neg (Common.space)), .none)]
  scanner := true

/-- `parse_cs_aspx`, src/parsers/cs_aspx.rl:218-236; the callbacks are src/parsers/cs_aspx.rl:38-55, src/parsers/css.rl:33-47, src/parsers/javascript.rl:33-47, src/parsers/c.rl:33-47. -/
def parser : EParser where
  name := "parse_cs_aspx"
  langs := ["html", "css", "javascript", "csharp"]
  sws := [
    [((.own 0), .ls), ((.own 5), .code), (.internalNl, .embInternalNewline), (.newline, .embNewline), (.checkBlank, .checkBlank)],
    [((.own 0), .ls), ((.own 9), .code), (.internalNl, .internalNewline), (.newline, .newline)],
    [((.own 0), .ls), ((.own 7), .code), (.internalNl, .internalNewline), (.newline, .newline)],
    [((.own 0), .ls), ((.own 8), .code), (.internalNl, .internalNewline), (.newline, .newline)]]
  machs := [cs_aspx_comment, cs_aspx_sq_str, cs_aspx_dq_str, cs_aspx_css_line, cs_aspx_js_line, cs_aspx_cs_line, cs_aspx_line, cs_aspx_css_entity, cs_aspx_js_entity, cs_aspx_cs_entity, cs_aspx_entity]
  line := 6
  entity := 10

end Ohcount.Gram.Emb.CsAspx

/-! ### rhtml.rl -/

namespace Ohcount.Gram.Emb.Rhtml
open Ohcount.Ragel

/-- Machine 0: src/parsers/rhtml.rl:59-69. A plain machine; the alternative with the call comes first, as Ragel lets its action run first.
```
  rhtml_comment := (
    newline %{ entity = INTERNAL_NL; } %rhtml_ccallback
    |
    ws
    |
    ^(space | [\-<]) @comment
    |
    '<' '%' @{ saw(RUBY_LANG); fcall rhtml_ruby_line; }
    |
    '<' !'%'
  )* :>> '-->' @comment @{ fgoto rhtml_line; };
``` -/
def rhtml_comment : EScanner where
  pats := [
  (.guard (.star (.alts [.seqs [.cls (Cls.chr 60), .fin (.cls (Cls.chr 37)) (.emb (.sawCall 3 5))], .leave (.leave (Common.newline) (.setEnt .internalNl)) .cb, .cls (Common.ws), .fin (.cls (Cls.neg (Cls.union (Common.space) (Cls.chars [45, 60])))) .comment, .seqs [.cls (Cls.chr 60), .opt (.seqs [.alts [.cls (Cls.neg (Cls.chr 37)), .seqs [.cls (Cls.chr 37), .cls (Cls.any)]], .star (.cls (Cls.any))])]])) (.fin (.fin (.lit [45, 45, 62]) .comment) (.emb (.goto 6))), .none)]
  scanner := false

/-- Machine 1: src/parsers/rhtml.rl:71-83. A plain machine; the alternative with the call comes first, as Ragel lets its action run first.
```
  rhtml_sq_str := (
    newline %{ entity = INTERNAL_NL; } %rhtml_ccallback
    |
    ws
    |
    [^\r\n\f\t '\\<] @code
    |
    '\\' nonnewline @code
    |
    '<' '%' @{ saw(RUBY_LANG); fcall rhtml_ruby_line; }
    |
    '<' !'%'
  )* '\'' @{ fgoto rhtml_line; };
``` -/
def rhtml_sq_str : EScanner where
  pats := [
  (.seqs [.star (.alts [.seqs [.cls (Cls.chr 60), .fin (.cls (Cls.chr 37)) (.emb (.sawCall 3 5))], .leave (.leave (Common.newline) (.setEnt .internalNl)) .cb, .cls (Common.ws), .fin (.cls (Cls.neg (Cls.ranges [(9, 10), (12, 13), (32, 32), (39, 39), (60, 60), (92, 92)]))) .code, .seqs [.cls (Cls.chr 92), .fin (.cls (Common.nonnewline)) .code], .seqs [.cls (Cls.chr 60), .opt (.seqs [.alts [.cls (Cls.neg (Cls.chr 37)), .seqs [.cls (Cls.chr 37), .cls (Cls.any)]], .star (.cls (Cls.any))])]]), .fin (.cls (Cls.chr 39)) (.emb (.goto 6))], .none)]
  scanner := false

/-- Machine 2: src/parsers/rhtml.rl:84-96. A plain machine; the alternative with the call comes first, as Ragel lets its action run first.
```
  rhtml_dq_str := (
    newline %{ entity = INTERNAL_NL; } %rhtml_ccallback
    |
    ws
    |
    [^\r\n\f\t "\\<] @code
    |
    '\\' nonnewline @code
    |
    '<' '%' @{ saw(RUBY_LANG); fcall rhtml_ruby_line; }
    |
    '<' !'%'
  )* '"' @{ fgoto rhtml_line; };
``` -/
def rhtml_dq_str : EScanner where
  pats := [
  (.seqs [.star (.alts [.seqs [.cls (Cls.chr 60), .fin (.cls (Cls.chr 37)) (.emb (.sawCall 3 5))], .leave (.leave (Common.newline) (.setEnt .internalNl)) .cb, .cls (Common.ws), .fin (.cls (Cls.neg (Cls.ranges [(9, 10), (12, 13), (32, 32), (34, 34), (60, 60), (92, 92)]))) .code, .seqs [.cls (Cls.chr 92), .fin (.cls (Common.nonnewline)) .code], .seqs [.cls (Cls.chr 60), .opt (.seqs [.alts [.cls (Cls.neg (Cls.chr 37)), .seqs [.cls (Cls.chr 37), .cls (Cls.any)]], .star (.cls (Cls.any))])]]), .fin (.cls (Cls.chr 34)) (.emb (.goto 6))], .none)]
  scanner := false

/-- src/parsers/rhtml.rl:98
```
  ws_or_inl = (ws | newline @{ entity = INTERNAL_NL; } %rhtml_ccallback);
``` -/
def ws_or_inl : Rx := .alts [.cls (Common.ws), .leave (.fin (Common.newline) (.setEnt .internalNl)) .cb]

/-- src/parsers/rhtml.rl:101
```
  rhtml_css_outry = '</' /style/i ws_or_inl* '>' @check_blank_outry @code;
``` -/
def rhtml_css_outry : Rx := .seqs [.lit [60, 47], .seqs [.cls (Cls.chars [83, 115]), .cls (Cls.chars [84, 116]), .cls (Cls.chars [89, 121]), .cls (Cls.chars [76, 108]), .cls (Cls.chars [69, 101])], .star (ws_or_inl), .fin (.fin (.cls (Cls.chr 62)) (.emb .outry)) .code]

/-- src/parsers/css.rl:49-56
```
  css_comment =
    '/*' @comment (
      newline %{ entity = INTERNAL_NL; } %css_ccallback
      |
      ws
      |
      (nonnewline - ws) @comment
    )* :>> '*/';
``` -/
def css_comment : Rx := .guard (.seqs [.fin (.lit [47, 42]) .comment, .star (.alts [.leave (.leave (Common.newline) (.setEnt .internalNl)) (.emb (.cb 1)), .cls (Common.ws), .fin (.cls (Cls.diff (Common.nonnewline) (Common.ws))) .comment])]) (.lit [42, 47])

/-- src/parsers/css.rl:58-67
```
  css_sq_str =
    '\'' @code (
      newline %{ entity = INTERNAL_NL; } %css_ccallback
      |
      ws
      |
      [^\r\n\f\t '\\] @code
      |
      '\\' nonnewline @code
    )* '\'';
``` -/
def css_sq_str : Rx := .seqs [.fin (.cls (Cls.chr 39)) .code, .star (.alts [.leave (.leave (Common.newline) (.setEnt .internalNl)) (.emb (.cb 1)), .cls (Common.ws), .fin (.cls (Cls.neg (Cls.ranges [(9, 10), (12, 13), (32, 32), (39, 39), (92, 92)]))) .code, .seqs [.cls (Cls.chr 92), .fin (.cls (Common.nonnewline)) .code]]), .cls (Cls.chr 39)]

/-- src/parsers/css.rl:68-77
```
  css_dq_str =
    '"' @code (
      newline %{ entity = INTERNAL_NL; } %css_ccallback
      |
      ws
      |
      [^\r\n\f\t "\\] @code
      |
      '\\' nonnewline @code
    )* '"';
``` -/
def css_dq_str : Rx := .seqs [.fin (.cls (Cls.chr 34)) .code, .star (.alts [.leave (.leave (Common.newline) (.setEnt .internalNl)) (.emb (.cb 1)), .cls (Common.ws), .fin (.cls (Cls.neg (Cls.ranges [(9, 10), (12, 13), (32, 32), (34, 34), (92, 92)]))) .code, .seqs [.cls (Cls.chr 92), .fin (.cls (Common.nonnewline)) .code]]), .cls (Cls.chr 34)]

/-- src/parsers/css.rl:78
```
  css_string = css_sq_str | css_dq_str;
``` -/
def css_string : Rx := .alts [css_sq_str, css_dq_str]

/-- Machine 3: src/parsers/rhtml.rl:102-110.
```
  rhtml_css_line := |*
    rhtml_css_outry @{ p = ts; fret; };
    # unmodified CSS patterns
    spaces      ${ entity = CSS_SPACE; } => css_ccallback;
    css_comment;
    css_string;
    newline     ${ entity = NEWLINE;   } => css_ccallback;
    ^space      ${ entity = CSS_ANY;   } => css_ccallback;
  *|;
``` -/
def rhtml_css_line : EScanner where
  pats := [
  (.fin (rhtml_css_outry) (.emb .back), .none),
  (.all (Common.spaces) (.setEnt (.own 0)), .cb 1),
  (css_comment, .none),
  (css_string, .none),
  (.all (Common.newline) (.setEnt .newline), .cb 1),
  (.all (.cls (Cls.neg (Common.space))) (.setEnt (.own 9)), .cb 1)]
  scanner := true

/-- src/parsers/rhtml.rl:113
```
  rhtml_js_outry = '</' /script/i ws_or_inl* '>' @check_blank_outry @code;
``` -/
def rhtml_js_outry : Rx := .seqs [.lit [60, 47], .seqs [.cls (Cls.chars [83, 115]), .cls (Cls.chars [67, 99]), .cls (Cls.chars [82, 114]), .cls (Cls.chars [73, 105]), .cls (Cls.chars [80, 112]), .cls (Cls.chars [84, 116])], .star (ws_or_inl), .fin (.fin (.cls (Cls.chr 62)) (.emb .outry)) .code]

/-- src/parsers/javascript.rl:49
```
  js_line_comment = '//' @comment nonnewline*;
``` -/
def js_line_comment : Rx := .seqs [.fin (.lit [47, 47]) .comment, .star (.cls (Common.nonnewline))]

/-- src/parsers/javascript.rl:50-57
```
  js_block_comment =
    '/*' @comment (
      newline %{ entity = INTERNAL_NL; } %js_ccallback
      |
      ws
      |
      (nonnewline - ws) @comment
    )* :>> '*/';
``` -/
def js_block_comment : Rx := .guard (.seqs [.fin (.lit [47, 42]) .comment, .star (.alts [.leave (.leave (Common.newline) (.setEnt .internalNl)) (.emb (.cb 2)), .cls (Common.ws), .fin (.cls (Cls.diff (Common.nonnewline) (Common.ws))) .comment])]) (.lit [42, 47])

/-- src/parsers/javascript.rl:58
```
  js_comment = js_line_comment | js_block_comment;
``` -/
def js_comment : Rx := .alts [js_line_comment, js_block_comment]

/-- src/parsers/javascript.rl:62-71
```
  js_sq_str =
    '\'' @code (
      escaped_newline %{ entity = INTERNAL_NL; } %js_ccallback
      |
      ws
      |
      [^\t '\\] @code
      |
      '\\' nonnewline @code
    )* '\'';
``` -/
def js_sq_str : Rx := .seqs [.fin (.cls (Cls.chr 39)) .code, .star (.alts [.leave (.leave (Common.escaped_newline) (.setEnt .internalNl)) (.emb (.cb 2)), .cls (Common.ws), .fin (.cls (Cls.neg (Cls.chars [9, 32, 39, 92]))) .code, .seqs [.cls (Cls.chr 92), .fin (.cls (Common.nonnewline)) .code]]), .cls (Cls.chr 39)]

/-- src/parsers/javascript.rl:72-81
```
  js_dq_str =
    '"' @code (
      escaped_newline %{ entity = INTERNAL_NL; } %js_ccallback
      |
      ws
      |
      [^\t "\\] @code
      |
      '\\' nonnewline @code
    )* '"';
``` -/
def js_dq_str : Rx := .seqs [.fin (.cls (Cls.chr 34)) .code, .star (.alts [.leave (.leave (Common.escaped_newline) (.setEnt .internalNl)) (.emb (.cb 2)), .cls (Common.ws), .fin (.cls (Cls.neg (Cls.chars [9, 32, 34, 92]))) .code, .seqs [.cls (Cls.chr 92), .fin (.cls (Common.nonnewline)) .code]]), .cls (Cls.chr 34)]

/-- src/parsers/javascript.rl:82
```
  js_regex_str = '/' [^/*] ([^\r\n\f/\\] | '\\' nonnewline)* '/' @code;
``` -/
def js_regex_str : Rx := .seqs [.cls (Cls.chr 47), .cls (Cls.neg (Cls.chars [42, 47])), .star (.alts [.cls (Cls.neg (Cls.ranges [(10, 10), (12, 13), (47, 47), (92, 92)])), .seqs [.cls (Cls.chr 92), .cls (Common.nonnewline)]]), .fin (.cls (Cls.chr 47)) .code]

/-- src/parsers/javascript.rl:83
```
  js_string = js_sq_str | js_dq_str | js_regex_str;
``` -/
def js_string : Rx := .alts [js_sq_str, js_dq_str, js_regex_str]

/-- Machine 4: src/parsers/rhtml.rl:114-122.
```
  rhtml_js_line := |*
    rhtml_js_outry @{ p = ts; fret; };
    # unmodified Javascript patterns
    spaces     ${ entity = JS_SPACE; } => js_ccallback;
    js_comment;
    js_string;
    newline    ${ entity = NEWLINE;  } => js_ccallback;
    ^space     ${ entity = JS_ANY;   } => js_ccallback;
  *|;
``` -/
def rhtml_js_line : EScanner where
  pats := [
  (.fin (rhtml_js_outry) (.emb .back), .none),
  (.all (Common.spaces) (.setEnt (.own 0)), .cb 2),
  (js_comment, .none),
  (js_string, .none),
  (.all (Common.newline) (.setEnt .newline), .cb 2),
  (.all (.cls (Cls.neg (Common.space))) (.setEnt (.own 7)), .cb 2)]
  scanner := true

/-- src/parsers/rhtml.rl:125
```
  rhtml_ruby_outry = '%>' @check_blank_outry @code;
``` -/
def rhtml_ruby_outry : Rx := .fin (.fin (.lit [37, 62]) (.emb .outry)) .code

/-- src/parsers/ruby.rl:47
```
  ruby_line_comment = '#' @comment nonnewline*;
``` -/
def ruby_line_comment : Rx := .seqs [.fin (.cls (Cls.chr 35)) .comment, .star (.cls (Common.nonnewline))]

/-- src/parsers/ruby.rl:50-57
```
  ruby_block_comment =
    '=begin' @enqueue @comment (
      newline %{ entity = INTERNAL_NL; } %ruby_ccallback
      |
      ws
      |
      (nonnewline - ws) @comment
    )* :>> '=end' @commit;
``` -/
def ruby_block_comment : Rx := .guard (.seqs [.fin (.fin (.lit [61, 98, 101, 103, 105, 110]) .enqueue) .comment, .star (.alts [.leave (.leave (Common.newline) (.setEnt .internalNl)) (.emb (.cb 3)), .cls (Common.ws), .fin (.cls (Cls.diff (Common.nonnewline) (Common.ws))) .comment])]) (.fin (.lit [61, 101, 110, 100]) .commit)

/-- src/parsers/ruby.rl:58
```
  ruby_comment = ruby_line_comment | ruby_block_comment;
``` -/
def ruby_comment : Rx := .alts [ruby_line_comment, ruby_block_comment]

/-- src/parsers/ruby.rl:60-69
```
  ruby_sq_str =
    '\'' @enqueue @code (
      newline %{ entity = INTERNAL_NL; } %ruby_ccallback
      |
      ws
      |
      [^\r\n\f\t '\\] @code
      |
      '\\' nonnewline @code
    )* '\'' @commit @code;
``` -/
def ruby_sq_str : Rx := .seqs [.fin (.fin (.cls (Cls.chr 39)) .enqueue) .code, .star (.alts [.leave (.leave (Common.newline) (.setEnt .internalNl)) (.emb (.cb 3)), .cls (Common.ws), .fin (.cls (Cls.neg (Cls.ranges [(9, 10), (12, 13), (32, 32), (39, 39), (92, 92)]))) .code, .seqs [.cls (Cls.chr 92), .fin (.cls (Common.nonnewline)) .code]]), .fin (.fin (.cls (Cls.chr 39)) .commit) .code]

/-- src/parsers/ruby.rl:70-79
```
  ruby_dq_str =
    '"' @enqueue @code (
      newline %{ entity = INTERNAL_NL; } %ruby_ccallback
      |
      ws
      |
      [^\r\n\f\t "\\] @code
      |
      '\\' nonnewline @code
    )* '"' @commit @code;
``` -/
def ruby_dq_str : Rx := .seqs [.fin (.fin (.cls (Cls.chr 34)) .enqueue) .code, .star (.alts [.leave (.leave (Common.newline) (.setEnt .internalNl)) (.emb (.cb 3)), .cls (Common.ws), .fin (.cls (Cls.neg (Cls.ranges [(9, 10), (12, 13), (32, 32), (34, 34), (92, 92)]))) .code, .seqs [.cls (Cls.chr 92), .fin (.cls (Common.nonnewline)) .code]]), .fin (.fin (.cls (Cls.chr 34)) .commit) .code]

/-- src/parsers/ruby.rl:89-98
```
  ruby_lit_str =
    '%' [qQ]? [(\[{] @enqueue @code (
      newline %{ entity = INTERNAL_NL; } %ruby_ccallback
      |
      ws
      |
      [^\r\n\f\t )\]}\\] @code
      |
      '\\' nonnewline @code
    )* [)\]}] @commit @code;
``` -/
def ruby_lit_str : Rx := .seqs [.cls (Cls.chr 37), .opt (.cls (Cls.chars [81, 113])), .fin (.fin (.cls (Cls.chars [40, 91, 123])) .enqueue) .code, .star (.alts [.leave (.leave (Common.newline) (.setEnt .internalNl)) (.emb (.cb 3)), .cls (Common.ws), .fin (.cls (Cls.neg (Cls.ranges [(9, 10), (12, 13), (32, 32), (41, 41), (92, 93), (125, 125)]))) .code, .seqs [.cls (Cls.chr 92), .fin (.cls (Common.nonnewline)) .code]]), .fin (.fin (.cls (Cls.chars [41, 93, 125])) .commit) .code]

/-- src/parsers/ruby.rl:99-108
```
  ruby_cmd_str =
    '`' @enqueue @code (
      newline %{ entity = INTERNAL_NL; } %ruby_ccallback
      |
      ws
      |
      [^\r\n\f\t `\\] @code
      |
      '\\' nonnewline @code
    )* '`' @commit @code;
``` -/
def ruby_cmd_str : Rx := .seqs [.fin (.fin (.cls (Cls.chr 96)) .enqueue) .code, .star (.alts [.leave (.leave (Common.newline) (.setEnt .internalNl)) (.emb (.cb 3)), .cls (Common.ws), .fin (.cls (Cls.neg (Cls.ranges [(9, 10), (12, 13), (32, 32), (92, 92), (96, 96)]))) .code, .seqs [.cls (Cls.chr 92), .fin (.cls (Common.nonnewline)) .code]]), .fin (.fin (.cls (Cls.chr 96)) .commit) .code]

/-- src/parsers/ruby.rl:109
```
  ruby_regex = '/' ([^\r\n\f/\\] | '\\' nonnewline)* '/' @code;
``` -/
def ruby_regex : Rx := .seqs [.cls (Cls.chr 47), .star (.alts [.cls (Cls.neg (Cls.ranges [(10, 10), (12, 13), (47, 47), (92, 92)])), .seqs [.cls (Cls.chr 92), .cls (Common.nonnewline)]]), .fin (.cls (Cls.chr 47)) .code]

/-- src/parsers/ruby.rl:112-121
```
  ruby_lit_other =
    '%' [wrx] [(\[{] @enqueue @code (
      newline %{ entity = INTERNAL_NL; } %ruby_ccallback
      |
      ws
      |
      [^\r\n\f\t )\]}\\] @code
      |
      '\\' nonnewline @code
    )* [)\]}] @commit @code;
``` -/
def ruby_lit_other : Rx := .seqs [.cls (Cls.chr 37), .cls (Cls.ranges [(114, 114), (119, 120)]), .fin (.fin (.cls (Cls.chars [40, 91, 123])) .enqueue) .code, .star (.alts [.leave (.leave (Common.newline) (.setEnt .internalNl)) (.emb (.cb 3)), .cls (Common.ws), .fin (.cls (Cls.neg (Cls.ranges [(9, 10), (12, 13), (32, 32), (41, 41), (92, 93), (125, 125)]))) .code, .seqs [.cls (Cls.chr 92), .fin (.cls (Common.nonnewline)) .code]]), .fin (.fin (.cls (Cls.chars [41, 93, 125])) .commit) .code]

/-- src/parsers/ruby.rl:126-128
```
  ruby_string =
    ruby_sq_str | ruby_dq_str | ruby_lit_str | ruby_cmd_str | ruby_regex |
    ruby_lit_other;
``` -/
def ruby_string : Rx := .alts [ruby_sq_str, ruby_dq_str, ruby_lit_str, ruby_cmd_str, ruby_regex, ruby_lit_other]

/-- Machine 5: src/parsers/rhtml.rl:126-134.
```
  rhtml_ruby_line := |*
    rhtml_ruby_outry @{ p = ts; fret; };
    # unmodified Ruby patterns
    spaces        ${ entity = RUBY_SPACE; } => ruby_ccallback;
    ruby_comment;
    ruby_string;
    newline       ${ entity = NEWLINE;    } => ruby_ccallback;
    ^space        ${ entity = RUBY_ANY;   } => ruby_ccallback;
  *|;
``` -/
def rhtml_ruby_line : EScanner where
  pats := [
  (.fin (rhtml_ruby_outry) (.emb .back), .none),
  (.all (Common.spaces) (.setEnt (.own 0)), .cb 3),
  (ruby_comment, .none),
  (ruby_string, .none),
  (.all (Common.newline) (.setEnt .newline), .cb 3),
  (.all (.cls (Cls.neg (Common.space))) (.setEnt (.own 3)), .cb 3)]
  scanner := true

/-- src/parsers/rhtml.rl:100
```
  rhtml_css_entry = '<' /style/i [^>]+ :>> 'text/css' [^>]+ '>' @code;
``` -/
def rhtml_css_entry : Rx := .seqs [.guard (.seqs [.cls (Cls.chr 60), .seqs [.cls (Cls.chars [83, 115]), .cls (Cls.chars [84, 116]), .cls (Cls.chars [89, 121]), .cls (Cls.chars [76, 108]), .cls (Cls.chars [69, 101])], .plus (.cls (Cls.neg (Cls.chr 62)))]) (.lit [116, 101, 120, 116, 47, 99, 115, 115]), .plus (.cls (Cls.neg (Cls.chr 62))), .fin (.cls (Cls.chr 62)) .code]

/-- src/parsers/rhtml.rl:112
```
  rhtml_js_entry = '<' /script/i [^>]+ :>> 'text/javascript' [^>]+ '>' @code;
``` -/
def rhtml_js_entry : Rx := .seqs [.guard (.seqs [.cls (Cls.chr 60), .seqs [.cls (Cls.chars [83, 115]), .cls (Cls.chars [67, 99]), .cls (Cls.chars [82, 114]), .cls (Cls.chars [73, 105]), .cls (Cls.chars [80, 112]), .cls (Cls.chars [84, 116])], .plus (.cls (Cls.neg (Cls.chr 62)))]) (.lit [116, 101, 120, 116, 47, 106, 97, 118, 97, 115, 99, 114, 105, 112, 116]), .plus (.cls (Cls.neg (Cls.chr 62))), .fin (.cls (Cls.chr 62)) .code]

/-- src/parsers/rhtml.rl:124
```
  rhtml_ruby_entry = '<%' @code;
``` -/
def rhtml_ruby_entry : Rx := .fin (.lit [60, 37]) .code

/-- Machine 6: src/parsers/rhtml.rl:136-150.
```
  rhtml_line := |*
    rhtml_css_entry @{ entity = CHECK_BLANK_ENTRY; } @rhtml_ccallback
      @{ saw(CSS_LANG); } => { fcall rhtml_css_line; };
    rhtml_js_entry @{ entity = CHECK_BLANK_ENTRY; } @rhtml_ccallback
      @{ saw(JS_LANG); } => { fcall rhtml_js_line; };
    rhtml_ruby_entry @{ entity = CHECK_BLANK_ENTRY; } @rhtml_ccallback
      @{ saw(RUBY_LANG); } => { fcall rhtml_ruby_line; };
    # standard RHTML patterns
    spaces       ${ entity = RHTML_SPACE; } => rhtml_ccallback;
    '<!--'       @comment                   => { fgoto rhtml_comment; };
    '\''         @code                      => { fgoto rhtml_sq_str;  };
    '"'          @code                      => { fgoto rhtml_dq_str;  };
    newline      ${ entity = NEWLINE;     } => rhtml_ccallback;
    ^space       ${ entity = RHTML_ANY;   } => rhtml_ccallback;
  *|;
``` -/
def rhtml_line : EScanner where
  pats := [
  (.fin (.fin (.fin (rhtml_css_entry) (.setEnt .checkBlank)) .cb) (.emb (.saw 1)), .call 3),
  (.fin (.fin (.fin (rhtml_js_entry) (.setEnt .checkBlank)) .cb) (.emb (.saw 2)), .call 4),
  (.fin (.fin (.fin (rhtml_ruby_entry) (.setEnt .checkBlank)) .cb) (.emb (.saw 3)), .call 5),
  (.all (Common.spaces) (.setEnt (.own 0)), .cb 0),
  (.fin (.lit [60, 33, 45, 45]) .comment, .goto 0),
  (.fin (.cls (Cls.chr 39)) .code, .goto 1),
  (.fin (.cls (Cls.chr 34)) .code, .goto 2),
  (.all (Common.newline) (.setEnt .newline), .cb 0),
  (.all (.cls (Cls.neg (Common.space))) (.setEnt (.own 5)), .cb 0)]
  scanner := true

/-- src/parsers/rhtml.rl:159
```
  rhtml_css_outry_entity = '</' /style/i ws_or_inl* '>';
``` -/
def rhtml_css_outry_entity : Rx := .seqs [.lit [60, 47], .seqs [.cls (Cls.chars [83, 115]), .cls (Cls.chars [84, 116]), .cls (Cls.chars [89, 121]), .cls (Cls.chars [76, 108]), .cls (Cls.chars [69, 101])], .star (ws_or_inl), .cls (Cls.chr 62)]

/-- src/parsers/css.rl:94
```
  css_comment_entity = '/*' any* :>> '*/';
``` -/
def css_comment_entity : Rx := .guard (.seqs [.lit [47, 42], .star (.cls (Cls.any))]) (.lit [42, 47])

/-- Machine 7: src/parsers/rhtml.rl:160-167.
```
  rhtml_css_entity := |*
    rhtml_css_outry_entity @{ fret; };
    # unmodified CSS patterns
    space+             ${ entity = CSS_SPACE;   } => css_ecallback;
    css_comment_entity ${ entity = CSS_COMMENT; } => css_ecallback;
    # TODO:
    ^space;
  *|;
``` -/
def rhtml_css_entity : EScanner where
  pats := [
  (.fin (rhtml_css_outry_entity) (.emb .ret), .none),
  (.all (.plus (.cls (Common.space))) (.setEnt (.own 0)), .ecb 1),
  (.all (css_comment_entity) (.setEnt (.own 1)), .ecb 1),
  (.cls (Cls.neg (Common.space)), .none)]
  scanner := true

/-- src/parsers/rhtml.rl:170
```
  rhtml_js_outry_entity = '</' /script/i ws_or_inl* '>';
``` -/
def rhtml_js_outry_entity : Rx := .seqs [.lit [60, 47], .seqs [.cls (Cls.chars [83, 115]), .cls (Cls.chars [67, 99]), .cls (Cls.chars [82, 114]), .cls (Cls.chars [73, 105]), .cls (Cls.chars [80, 112]), .cls (Cls.chars [84, 116])], .star (ws_or_inl), .cls (Cls.chr 62)]

/-- src/parsers/javascript.rl:99
```
  js_line_comment_entity = '//' nonnewline*;
``` -/
def js_line_comment_entity : Rx := .seqs [.lit [47, 47], .star (.cls (Common.nonnewline))]

/-- src/parsers/javascript.rl:100
```
  js_block_comment_entity = '/*' any* :>> '*/';
``` -/
def js_block_comment_entity : Rx := .guard (.seqs [.lit [47, 42], .star (.cls (Cls.any))]) (.lit [42, 47])

/-- src/parsers/javascript.rl:101
```
  js_comment_entity = js_line_comment_entity | js_block_comment_entity;
``` -/
def js_comment_entity : Rx := .alts [js_line_comment_entity, js_block_comment_entity]

/-- Machine 8: src/parsers/rhtml.rl:171-178.
```
  rhtml_js_entity := |*
    rhtml_js_outry_entity @{ fret; };
    # unmodified Javascript patterns
    space+            ${ entity = JS_SPACE;   } => js_ecallback;
    js_comment_entity ${ entity = JS_COMMENT; } => js_ecallback;
    # TODO:
    ^space;
  *|;
``` -/
def rhtml_js_entity : EScanner where
  pats := [
  (.fin (rhtml_js_outry_entity) (.emb .ret), .none),
  (.all (.plus (.cls (Common.space))) (.setEnt (.own 0)), .ecb 2),
  (.all (js_comment_entity) (.setEnt (.own 1)), .ecb 2),
  (.cls (Cls.neg (Common.space)), .none)]
  scanner := true

/-- src/parsers/rhtml.rl:181
```
  rhtml_ruby_outry_entity = '%>';
``` -/
def rhtml_ruby_outry_entity : Rx := .lit [37, 62]

/-- src/parsers/ruby.rl:144
```
  ruby_line_comment_entity = '#' nonnewline*;
``` -/
def ruby_line_comment_entity : Rx := .seqs [.cls (Cls.chr 35), .star (.cls (Common.nonnewline))]

/-- src/parsers/ruby.rl:145-146
```
  ruby_block_comment_entity = ('=' when starts_line) 'begin'
    any* :>> (('=' when starts_line) 'end');
``` -/
def ruby_block_comment_entity : Rx := .guard (.seqs [.cond (.cls (Cls.chr 61)) .startsLine, .lit [98, 101, 103, 105, 110], .star (.cls (Cls.any))]) (.seqs [.cond (.cls (Cls.chr 61)) .startsLine, .lit [101, 110, 100]])

/-- src/parsers/ruby.rl:147
```
  ruby_comment_entity = ruby_line_comment_entity | ruby_block_comment_entity;
``` -/
def ruby_comment_entity : Rx := .alts [ruby_line_comment_entity, ruby_block_comment_entity]

/-- Machine 9: src/parsers/rhtml.rl:182-189.
```
  rhtml_ruby_entity := |*
    rhtml_ruby_outry_entity @{ fret; };
    # unmodified Ruby patterns
    space+              ${ entity = RUBY_SPACE;   } => ruby_ecallback;
    ruby_comment_entity ${ entity = RUBY_COMMENT; } => ruby_ecallback;
    # TODO:
    ^space;
  *|;
``` -/
def rhtml_ruby_entity : EScanner where
  pats := [
  (.fin (rhtml_ruby_outry_entity) (.emb .ret), .none),
  (.all (.plus (.cls (Common.space))) (.setEnt (.own 0)), .ecb 3),
  (.all (ruby_comment_entity) (.setEnt (.own 1)), .ecb 3),
  (.cls (Cls.neg (Common.space)), .none)]
  scanner := true

/-- src/parsers/rhtml.rl:158
```
  rhtml_css_entry_entity = '<' /style/i [^>]+ :>> 'text/css' [^>]+ '>';
``` -/
def rhtml_css_entry_entity : Rx := .seqs [.guard (.seqs [.cls (Cls.chr 60), .seqs [.cls (Cls.chars [83, 115]), .cls (Cls.chars [84, 116]), .cls (Cls.chars [89, 121]), .cls (Cls.chars [76, 108]), .cls (Cls.chars [69, 101])], .plus (.cls (Cls.neg (Cls.chr 62)))]) (.lit [116, 101, 120, 116, 47, 99, 115, 115]), .plus (.cls (Cls.neg (Cls.chr 62))), .cls (Cls.chr 62)]

/-- src/parsers/rhtml.rl:169
```
  rhtml_js_entry_entity = '<' /script/i [^>]+ :>> 'text/javascript' [^>]+ '>';
``` -/
def rhtml_js_entry_entity : Rx := .seqs [.guard (.seqs [.cls (Cls.chr 60), .seqs [.cls (Cls.chars [83, 115]), .cls (Cls.chars [67, 99]), .cls (Cls.chars [82, 114]), .cls (Cls.chars [73, 105]), .cls (Cls.chars [80, 112]), .cls (Cls.chars [84, 116])], .plus (.cls (Cls.neg (Cls.chr 62)))]) (.lit [116, 101, 120, 116, 47, 106, 97, 118, 97, 115, 99, 114, 105, 112, 116]), .plus (.cls (Cls.neg (Cls.chr 62))), .cls (Cls.chr 62)]

/-- src/parsers/rhtml.rl:180
```
  rhtml_ruby_entry_entity = '<%';
``` -/
def rhtml_ruby_entry_entity : Rx := .lit [60, 37]

/-- src/parsers/rhtml.rl:191
```
  rhtml_comment_entity = '<!--' any* :>> '-->';
``` -/
def rhtml_comment_entity : Rx := .guard (.seqs [.lit [60, 33, 45, 45], .star (.cls (Cls.any))]) (.lit [45, 45, 62])

/-- Machine 10: src/parsers/rhtml.rl:193-203.
```
  rhtml_entity := |*
    # TODO: rhtml_ecallback for rhtml_*_{entry,outry}_entity
    rhtml_css_entry_entity  => { fcall rhtml_css_entity;  };
    rhtml_js_entry_entity   => { fcall rhtml_js_entity;   };
    rhtml_ruby_entry_entity => { fcall rhtml_ruby_entity; };
    # standard RHTML patterns
    space+               ${ entity = RHTML_SPACE;   } => rhtml_ecallback;
    rhtml_comment_entity ${ entity = RHTML_COMMENT; } => rhtml_ecallback;
    # TODO:
    ^space;
  *|;
``` -/
def rhtml_entity : EScanner where
  pats := [
  (rhtml_css_entry_entity, .call 7),
  (rhtml_js_entry_entity, .call 8),
  (rhtml_ruby_entry_entity, .call 9),
  (.all (.plus (.cls (Common.space))) (.setEnt (.own 0)), .ecb 0),
  (.all (rhtml_comment_entity) (.setEnt (.own 1)), .ecb 0),
  (.cls (Cls.neg (Common.space)), .none)]
  scanner := true

/-- `parse_rhtml`, src/parsers/rhtml.rl:219-234; the callbacks are src/parsers/rhtml.rl:40-57, src/parsers/css.rl:33-47, src/parsers/javascript.rl:33-47, src/parsers/ruby.rl:31-45. -/
def parser : EParser where
  name := "parse_rhtml"
  langs := ["html", "css", "javascript", "ruby"]
  sws := [
    [((.own 0), .ls), ((.own 5), .code), (.internalNl, .embInternalNewline), (.newline, .embNewline), (.checkBlank, .checkBlank)],
    [((.own 0), .ls), ((.own 9), .code), (.internalNl, .internalNewline), (.newline, .newline)],
    [((.own 0), .ls), ((.own 7), .code), (.internalNl, .internalNewline), (.newline, .newline)],
    [((.own 0), .ls), ((.own 3), .code), (.internalNl, .internalNewline), (.newline, .newline)]]
  machs := [rhtml_comment, rhtml_sq_str, rhtml_dq_str, rhtml_css_line, rhtml_js_line, rhtml_ruby_line, rhtml_line, rhtml_css_entity, rhtml_js_entity, rhtml_ruby_entity, rhtml_entity]
  line := 6
  entity := 10

end Ohcount.Gram.Emb.Rhtml

/-! ### vb_aspx.rl -/

namespace Ohcount.Gram.Emb.VbAspx
open Ohcount.Ragel

/-- Machine 0: src/parsers/vb_aspx.rl:57-67. A plain machine; the alternative with the call comes first, as Ragel lets its action run first.
```
  vb_aspx_comment := (
    newline %{ entity = INTERNAL_NL; } %vb_aspx_ccallback
    |
    ws
    |
    ^(space | [\-<]) @comment
    |
    '<' '%' @{ saw(VB_LANG); fcall vb_aspx_cs_line; }
    |
    '<' !'%'
  )* :>> '-->' @comment @{ fgoto vb_aspx_line; };
``` -/
def vb_aspx_comment : EScanner where
  pats := [
  (.guard (.star (.alts [.seqs [.cls (Cls.chr 60), .fin (.cls (Cls.chr 37)) (.emb (.sawCall 3 5))], .leave (.leave (Common.newline) (.setEnt .internalNl)) .cb, .cls (Common.ws), .fin (.cls (Cls.neg (Cls.union (Common.space) (Cls.chars [45, 60])))) .comment, .seqs [.cls (Cls.chr 60), .opt (.seqs [.alts [.cls (Cls.neg (Cls.chr 37)), .seqs [.cls (Cls.chr 37), .cls (Cls.any)]], .star (.cls (Cls.any))])]])) (.fin (.fin (.lit [45, 45, 62]) .comment) (.emb (.goto 6))), .none)]
  scanner := false

/-- Machine 1: src/parsers/vb_aspx.rl:69-81. A plain machine; the alternative with the call comes first, as Ragel lets its action run first.
```
  vb_aspx_sq_str := (
    newline %{ entity = INTERNAL_NL; } %vb_aspx_ccallback
    |
    ws
    |
    [^\r\n\f\t '\\<] @code
    |
    '\\' nonnewline @code
    |
    '<' '%' @{ saw(VB_LANG); fcall vb_aspx_cs_line; }
    |
    '<' !'%'
  )* '\'' @{ fgoto vb_aspx_line; };
``` -/
def vb_aspx_sq_str : EScanner where
  pats := [
  (.seqs [.star (.alts [.seqs [.cls (Cls.chr 60), .fin (.cls (Cls.chr 37)) (.emb (.sawCall 3 5))], .leave (.leave (Common.newline) (.setEnt .internalNl)) .cb, .cls (Common.ws), .fin (.cls (Cls.neg (Cls.ranges [(9, 10), (12, 13), (32, 32), (39, 39), (60, 60), (92, 92)]))) .code, .seqs [.cls (Cls.chr 92), .fin (.cls (Common.nonnewline)) .code], .seqs [.cls (Cls.chr 60), .opt (.seqs [.alts [.cls (Cls.neg (Cls.chr 37)), .seqs [.cls (Cls.chr 37), .cls (Cls.any)]], .star (.cls (Cls.any))])]]), .fin (.cls (Cls.chr 39)) (.emb (.goto 6))], .none)]
  scanner := false

/-- Machine 2: src/parsers/vb_aspx.rl:82-94. A plain machine; the alternative with the call comes first, as Ragel lets its action run first.
```
  vb_aspx_dq_str := (
    newline %{ entity = INTERNAL_NL; } %vb_aspx_ccallback
    |
    ws
    |
    [^\r\n\f\t "\\<] @code
    |
    '\\' nonnewline @code
    |
    '<' '%' @{ saw(VB_LANG); fcall vb_aspx_cs_line; }
    |
    '<' !'%'
  )* '"' @{ fgoto vb_aspx_line; };
``` -/
def vb_aspx_dq_str : EScanner where
  pats := [
  (.seqs [.star (.alts [.seqs [.cls (Cls.chr 60), .fin (.cls (Cls.chr 37)) (.emb (.sawCall 3 5))], .leave (.leave (Common.newline) (.setEnt .internalNl)) .cb, .cls (Common.ws), .fin (.cls (Cls.neg (Cls.ranges [(9, 10), (12, 13), (32, 32), (34, 34), (60, 60), (92, 92)]))) .code, .seqs [.cls (Cls.chr 92), .fin (.cls (Common.nonnewline)) .code], .seqs [.cls (Cls.chr 60), .opt (.seqs [.alts [.cls (Cls.neg (Cls.chr 37)), .seqs [.cls (Cls.chr 37), .cls (Cls.any)]], .star (.cls (Cls.any))])]]), .fin (.cls (Cls.chr 34)) (.emb (.goto 6))], .none)]
  scanner := false

/-- src/parsers/vb_aspx.rl:96
```
  ws_or_inl = (ws | newline @{ entity = INTERNAL_NL; } %vb_aspx_ccallback);
``` -/
def ws_or_inl : Rx := .alts [.cls (Common.ws), .leave (.fin (Common.newline) (.setEnt .internalNl)) .cb]

/-- src/parsers/vb_aspx.rl:99
```
  vb_aspx_css_outry = '</' /style/i ws_or_inl* '>' @check_blank_outry @code;
``` -/
def vb_aspx_css_outry : Rx := .seqs [.lit [60, 47], .seqs [.cls (Cls.chars [83, 115]), .cls (Cls.chars [84, 116]), .cls (Cls.chars [89, 121]), .cls (Cls.chars [76, 108]), .cls (Cls.chars [69, 101])], .star (ws_or_inl), .fin (.fin (.cls (Cls.chr 62)) (.emb .outry)) .code]

/-- src/parsers/css.rl:49-56
```
  css_comment =
    '/*' @comment (
      newline %{ entity = INTERNAL_NL; } %css_ccallback
      |
      ws
      |
      (nonnewline - ws) @comment
    )* :>> '*/';
``` -/
def css_comment : Rx := .guard (.seqs [.fin (.lit [47, 42]) .comment, .star (.alts [.leave (.leave (Common.newline) (.setEnt .internalNl)) (.emb (.cb 1)), .cls (Common.ws), .fin (.cls (Cls.diff (Common.nonnewline) (Common.ws))) .comment])]) (.lit [42, 47])

/-- src/parsers/css.rl:58-67
```
  css_sq_str =
    '\'' @code (
      newline %{ entity = INTERNAL_NL; } %css_ccallback
      |
      ws
      |
      [^\r\n\f\t '\\] @code
      |
      '\\' nonnewline @code
    )* '\'';
``` -/
def css_sq_str : Rx := .seqs [.fin (.cls (Cls.chr 39)) .code, .star (.alts [.leave (.leave (Common.newline) (.setEnt .internalNl)) (.emb (.cb 1)), .cls (Common.ws), .fin (.cls (Cls.neg (Cls.ranges [(9, 10), (12, 13), (32, 32), (39, 39), (92, 92)]))) .code, .seqs [.cls (Cls.chr 92), .fin (.cls (Common.nonnewline)) .code]]), .cls (Cls.chr 39)]

/-- src/parsers/css.rl:68-77
```
  css_dq_str =
    '"' @code (
      newline %{ entity = INTERNAL_NL; } %css_ccallback
      |
      ws
      |
      [^\r\n\f\t "\\] @code
      |
      '\\' nonnewline @code
    )* '"';
``` -/
def css_dq_str : Rx := .seqs [.fin (.cls (Cls.chr 34)) .code, .star (.alts [.leave (.leave (Common.newline) (.setEnt .internalNl)) (.emb (.cb 1)), .cls (Common.ws), .fin (.cls (Cls.neg (Cls.ranges [(9, 10), (12, 13), (32, 32), (34, 34), (92, 92)]))) .code, .seqs [.cls (Cls.chr 92), .fin (.cls (Common.nonnewline)) .code]]), .cls (Cls.chr 34)]

/-- src/parsers/css.rl:78
```
  css_string = css_sq_str | css_dq_str;
``` -/
def css_string : Rx := .alts [css_sq_str, css_dq_str]

/-- Machine 3: src/parsers/vb_aspx.rl:100-108.
```
  vb_aspx_css_line := |*
    vb_aspx_css_outry @{ p = ts; fret; };
    # unmodified CSS patterns
    spaces      ${ entity = CSS_SPACE; } => css_ccallback;
    css_comment;
    css_string;
    newline     ${ entity = NEWLINE;   } => css_ccallback;
    ^space      ${ entity = CSS_ANY;   } => css_ccallback;
  *|;
``` -/
def vb_aspx_css_line : EScanner where
  pats := [
  (.fin (vb_aspx_css_outry) (.emb .back), .none),
  (.all (Common.spaces) (.setEnt (.own 0)), .cb 1),
  (css_comment, .none),
  (css_string, .none),
  (.all (Common.newline) (.setEnt .newline), .cb 1),
  (.all (.cls (Cls.neg (Common.space))) (.setEnt (.own 9)), .cb 1)]
  scanner := true

/-- src/parsers/vb_aspx.rl:111
```
  vb_aspx_js_outry = '</' /script/i ws_or_inl* '>' @check_blank_outry @code;
``` -/
def vb_aspx_js_outry : Rx := .seqs [.lit [60, 47], .seqs [.cls (Cls.chars [83, 115]), .cls (Cls.chars [67, 99]), .cls (Cls.chars [82, 114]), .cls (Cls.chars [73, 105]), .cls (Cls.chars [80, 112]), .cls (Cls.chars [84, 116])], .star (ws_or_inl), .fin (.fin (.cls (Cls.chr 62)) (.emb .outry)) .code]

/-- src/parsers/javascript.rl:49
```
  js_line_comment = '//' @comment nonnewline*;
``` -/
def js_line_comment : Rx := .seqs [.fin (.lit [47, 47]) .comment, .star (.cls (Common.nonnewline))]

/-- src/parsers/javascript.rl:50-57
```
  js_block_comment =
    '/*' @comment (
      newline %{ entity = INTERNAL_NL; } %js_ccallback
      |
      ws
      |
      (nonnewline - ws) @comment
    )* :>> '*/';
``` -/
def js_block_comment : Rx := .guard (.seqs [.fin (.lit [47, 42]) .comment, .star (.alts [.leave (.leave (Common.newline) (.setEnt .internalNl)) (.emb (.cb 2)), .cls (Common.ws), .fin (.cls (Cls.diff (Common.nonnewline) (Common.ws))) .comment])]) (.lit [42, 47])

/-- src/parsers/javascript.rl:58
```
  js_comment = js_line_comment | js_block_comment;
``` -/
def js_comment : Rx := .alts [js_line_comment, js_block_comment]

/-- src/parsers/javascript.rl:62-71
```
  js_sq_str =
    '\'' @code (
      escaped_newline %{ entity = INTERNAL_NL; } %js_ccallback
      |
      ws
      |
      [^\t '\\] @code
      |
      '\\' nonnewline @code
    )* '\'';
``` -/
def js_sq_str : Rx := .seqs [.fin (.cls (Cls.chr 39)) .code, .star (.alts [.leave (.leave (Common.escaped_newline) (.setEnt .internalNl)) (.emb (.cb 2)), .cls (Common.ws), .fin (.cls (Cls.neg (Cls.chars [9, 32, 39, 92]))) .code, .seqs [.cls (Cls.chr 92), .fin (.cls (Common.nonnewline)) .code]]), .cls (Cls.chr 39)]

/-- src/parsers/javascript.rl:72-81
```
  js_dq_str =
    '"' @code (
      escaped_newline %{ entity = INTERNAL_NL; } %js_ccallback
      |
      ws
      |
      [^\t "\\] @code
      |
      '\\' nonnewline @code
    )* '"';
``` -/
def js_dq_str : Rx := .seqs [.fin (.cls (Cls.chr 34)) .code, .star (.alts [.leave (.leave (Common.escaped_newline) (.setEnt .internalNl)) (.emb (.cb 2)), .cls (Common.ws), .fin (.cls (Cls.neg (Cls.chars [9, 32, 34, 92]))) .code, .seqs [.cls (Cls.chr 92), .fin (.cls (Common.nonnewline)) .code]]), .cls (Cls.chr 34)]

/-- src/parsers/javascript.rl:82
```
  js_regex_str = '/' [^/*] ([^\r\n\f/\\] | '\\' nonnewline)* '/' @code;
``` -/
def js_regex_str : Rx := .seqs [.cls (Cls.chr 47), .cls (Cls.neg (Cls.chars [42, 47])), .star (.alts [.cls (Cls.neg (Cls.ranges [(10, 10), (12, 13), (47, 47), (92, 92)])), .seqs [.cls (Cls.chr 92), .cls (Common.nonnewline)]]), .fin (.cls (Cls.chr 47)) .code]

/-- src/parsers/javascript.rl:83
```
  js_string = js_sq_str | js_dq_str | js_regex_str;
``` -/
def js_string : Rx := .alts [js_sq_str, js_dq_str, js_regex_str]

/-- Machine 4: src/parsers/vb_aspx.rl:112-120.
```
  vb_aspx_js_line := |*
    vb_aspx_js_outry @{ p = ts; fret; };
    # unmodified Javascript patterns
    spaces     ${ entity = JS_SPACE; } => js_ccallback;
    js_comment;
    js_string;
    newline    ${ entity = NEWLINE;  } => js_ccallback;
    ^space     ${ entity = JS_ANY;   } => js_ccallback;
  *|;
``` -/
def vb_aspx_js_line : EScanner where
  pats := [
  (.fin (vb_aspx_js_outry) (.emb .back), .none),
  (.all (Common.spaces) (.setEnt (.own 0)), .cb 2),
  (js_comment, .none),
  (js_string, .none),
  (.all (Common.newline) (.setEnt .newline), .cb 2),
  (.all (.cls (Cls.neg (Common.space))) (.setEnt (.own 7)), .cb 2)]
  scanner := true

/-- src/parsers/vb_aspx.rl:123
```
  vb_aspx_cs_outry = ('%>' | '</' /script/i ws_or_inl* '>' @check_blank_outry) @code;
``` -/
def vb_aspx_cs_outry : Rx := .fin (.alts [.lit [37, 62], .seqs [.lit [60, 47], .seqs [.cls (Cls.chars [83, 115]), .cls (Cls.chars [67, 99]), .cls (Cls.chars [82, 114]), .cls (Cls.chars [73, 105]), .cls (Cls.chars [80, 112]), .cls (Cls.chars [84, 116])], .star (ws_or_inl), .fin (.cls (Cls.chr 62)) (.emb .outry)]]) .code

/-- src/parsers/visual_basic.rl:47
```
  vb_comment = ('\'' | /rem/i) @comment nonnewline*;
``` -/
def vb_comment : Rx := .seqs [.fin (.alts [.cls (Cls.chr 39), .seqs [.cls (Cls.chars [82, 114]), .cls (Cls.chars [69, 101]), .cls (Cls.chars [77, 109])]]) .comment, .star (.cls (Common.nonnewline))]

/-- src/parsers/visual_basic.rl:49
```
  vb_string = '"' @code ([^\r\n\f"\\] | '\\' nonnewline)* '"';
``` -/
def vb_string : Rx := .seqs [.fin (.cls (Cls.chr 34)) .code, .star (.alts [.cls (Cls.neg (Cls.ranges [(10, 10), (12, 13), (34, 34), (92, 92)])), .seqs [.cls (Cls.chr 92), .cls (Common.nonnewline)]]), .cls (Cls.chr 34)]

/-- Machine 5: src/parsers/vb_aspx.rl:124-132.
```
  vb_aspx_cs_line := |*
    vb_aspx_cs_outry @{ p = ts; fret; };
    # unmodified VB patterns
    spaces        ${ entity = VB_SPACE; } => vb_ccallback;
    vb_comment;
    vb_string;
    newline       ${ entity = NEWLINE;    } => vb_ccallback;
    ^space        ${ entity = VB_ANY;   } => vb_ccallback;
  *|;
``` -/
def vb_aspx_cs_line : EScanner where
  pats := [
  (.fin (vb_aspx_cs_outry) (.emb .back), .none),
  (.all (Common.spaces) (.setEnt (.own 0)), .cb 3),
  (vb_comment, .none),
  (vb_string, .none),
  (.all (Common.newline) (.setEnt .newline), .cb 3),
  (.all (.cls (Cls.neg (Common.space))) (.setEnt (.own 3)), .cb 3)]
  scanner := true

/-- src/parsers/vb_aspx.rl:98
```
  vb_aspx_css_entry = '<' /style/i [^>]+ :>> 'text/css' [^>]+ '>' @code;
``` -/
def vb_aspx_css_entry : Rx := .seqs [.guard (.seqs [.cls (Cls.chr 60), .seqs [.cls (Cls.chars [83, 115]), .cls (Cls.chars [84, 116]), .cls (Cls.chars [89, 121]), .cls (Cls.chars [76, 108]), .cls (Cls.chars [69, 101])], .plus (.cls (Cls.neg (Cls.chr 62)))]) (.lit [116, 101, 120, 116, 47, 99, 115, 115]), .plus (.cls (Cls.neg (Cls.chr 62))), .fin (.cls (Cls.chr 62)) .code]

/-- src/parsers/vb_aspx.rl:110
```
  vb_aspx_js_entry = '<' /script/i [^>]+ :>> 'text/javascript' [^>]+ '>' @code;
``` -/
def vb_aspx_js_entry : Rx := .seqs [.guard (.seqs [.cls (Cls.chr 60), .seqs [.cls (Cls.chars [83, 115]), .cls (Cls.chars [67, 99]), .cls (Cls.chars [82, 114]), .cls (Cls.chars [73, 105]), .cls (Cls.chars [80, 112]), .cls (Cls.chars [84, 116])], .plus (.cls (Cls.neg (Cls.chr 62)))]) (.lit [116, 101, 120, 116, 47, 106, 97, 118, 97, 115, 99, 114, 105, 112, 116]), .plus (.cls (Cls.neg (Cls.chr 62))), .fin (.cls (Cls.chr 62)) .code]

/-- src/parsers/vb_aspx.rl:122
```
  vb_aspx_cs_entry = ('<%' | '<' /script/i [^>]+ :>> 'server' [^>]+ '>') @code;
``` -/
def vb_aspx_cs_entry : Rx := .fin (.alts [.lit [60, 37], .seqs [.guard (.seqs [.cls (Cls.chr 60), .seqs [.cls (Cls.chars [83, 115]), .cls (Cls.chars [67, 99]), .cls (Cls.chars [82, 114]), .cls (Cls.chars [73, 105]), .cls (Cls.chars [80, 112]), .cls (Cls.chars [84, 116])], .plus (.cls (Cls.neg (Cls.chr 62)))]) (.lit [115, 101, 114, 118, 101, 114]), .plus (.cls (Cls.neg (Cls.chr 62))), .cls (Cls.chr 62)]]) .code

/-- Machine 6: src/parsers/vb_aspx.rl:134-148.
```
  vb_aspx_line := |*
    vb_aspx_css_entry @{ entity = CHECK_BLANK_ENTRY; } @vb_aspx_ccallback
      @{ saw(CSS_LANG); } => { fcall vb_aspx_css_line; };
    vb_aspx_js_entry @{ entity = CHECK_BLANK_ENTRY; } @vb_aspx_ccallback
      @{ saw(JS_LANG); } => { fcall vb_aspx_js_line; };
    vb_aspx_cs_entry @{ entity = CHECK_BLANK_ENTRY; } @vb_aspx_ccallback
      @{ saw(VB_LANG); } => { fcall vb_aspx_cs_line; };
    # standard VB_ASPX patterns
    spaces       ${ entity = VB_ASPX_SPACE; } => vb_aspx_ccallback;
    '<!--'       @comment                   => { fgoto vb_aspx_comment; };
    '\''         @code                      => { fgoto vb_aspx_sq_str;  };
    '"'          @code                      => { fgoto vb_aspx_dq_str;  };
    newline      ${ entity = NEWLINE;     } => vb_aspx_ccallback;
    ^space       ${ entity = VB_ASPX_ANY;   } => vb_aspx_ccallback;
  *|;
``` -/
def vb_aspx_line : EScanner where
  pats := [
  (.fin (.fin (.fin (vb_aspx_css_entry) (.setEnt .checkBlank)) .cb) (.emb (.saw 1)), .call 3),
  (.fin (.fin (.fin (vb_aspx_js_entry) (.setEnt .checkBlank)) .cb) (.emb (.saw 2)), .call 4),
  (.fin (.fin (.fin (vb_aspx_cs_entry) (.setEnt .checkBlank)) .cb) (.emb (.saw 3)), .call 5),
  (.all (Common.spaces) (.setEnt (.own 0)), .cb 0),
  (.fin (.lit [60, 33, 45, 45]) .comment, .goto 0),
  (.fin (.cls (Cls.chr 39)) .code, .goto 1),
  (.fin (.cls (Cls.chr 34)) .code, .goto 2),
  (.all (Common.newline) (.setEnt .newline), .cb 0),
  (.all (.cls (Cls.neg (Common.space))) (.setEnt (.own 5)), .cb 0)]
  scanner := true

/-- src/parsers/vb_aspx.rl:158
```
  vb_aspx_css_outry_entity = '</' /style/i ws_or_inl* '>';
``` -/
def vb_aspx_css_outry_entity : Rx := .seqs [.lit [60, 47], .seqs [.cls (Cls.chars [83, 115]), .cls (Cls.chars [84, 116]), .cls (Cls.chars [89, 121]), .cls (Cls.chars [76, 108]), .cls (Cls.chars [69, 101])], .star (ws_or_inl), .cls (Cls.chr 62)]

/-- src/parsers/css.rl:94
```
  css_comment_entity = '/*' any* :>> '*/';
``` -/
def css_comment_entity : Rx := .guard (.seqs [.lit [47, 42], .star (.cls (Cls.any))]) (.lit [42, 47])

/-- Machine 7: src/parsers/vb_aspx.rl:159-166.
```
  vb_aspx_css_entity := |*
    vb_aspx_css_outry_entity @{ fret; };
    # unmodified CSS patterns
    space+             ${ entity = CSS_SPACE;   } => css_ecallback;
    css_comment_entity ${ entity = CSS_COMMENT; } => css_ecallback;
    # TODO:
    ^space;
  *|;
``` -/
def vb_aspx_css_entity : EScanner where
  pats := [
  (.fin (vb_aspx_css_outry_entity) (.emb .ret), .none),
  (.all (.plus (.cls (Common.space))) (.setEnt (.own 0)), .ecb 1),
  (.all (css_comment_entity) (.setEnt (.own 1)), .ecb 1),
  (.cls (Cls.neg (Common.space)), .none)]
  scanner := true

/-- src/parsers/vb_aspx.rl:169
```
  vb_aspx_js_outry_entity = '</' /script/i ws_or_inl* '>';
``` -/
def vb_aspx_js_outry_entity : Rx := .seqs [.lit [60, 47], .seqs [.cls (Cls.chars [83, 115]), .cls (Cls.chars [67, 99]), .cls (Cls.chars [82, 114]), .cls (Cls.chars [73, 105]), .cls (Cls.chars [80, 112]), .cls (Cls.chars [84, 116])], .star (ws_or_inl), .cls (Cls.chr 62)]

/-- src/parsers/javascript.rl:99
```
  js_line_comment_entity = '//' nonnewline*;
``` -/
def js_line_comment_entity : Rx := .seqs [.lit [47, 47], .star (.cls (Common.nonnewline))]

/-- src/parsers/javascript.rl:100
```
  js_block_comment_entity = '/*' any* :>> '*/';
``` -/
def js_block_comment_entity : Rx := .guard (.seqs [.lit [47, 42], .star (.cls (Cls.any))]) (.lit [42, 47])

/-- src/parsers/javascript.rl:101
```
  js_comment_entity = js_line_comment_entity | js_block_comment_entity;
``` -/
def js_comment_entity : Rx := .alts [js_line_comment_entity, js_block_comment_entity]

/-- Machine 8: src/parsers/vb_aspx.rl:170-177.
```
  vb_aspx_js_entity := |*
    vb_aspx_js_outry_entity @{ fret; };
    # unmodified Javascript patterns
    space+            ${ entity = JS_SPACE;   } => js_ecallback;
    js_comment_entity ${ entity = JS_COMMENT; } => js_ecallback;
    # TODO:
    ^space;
  *|;
``` -/
def vb_aspx_js_entity : EScanner where
  pats := [
  (.fin (vb_aspx_js_outry_entity) (.emb .ret), .none),
  (.all (.plus (.cls (Common.space))) (.setEnt (.own 0)), .ecb 2),
  (.all (js_comment_entity) (.setEnt (.own 1)), .ecb 2),
  (.cls (Cls.neg (Common.space)), .none)]
  scanner := true

/-- src/parsers/vb_aspx.rl:180
```
  vb_aspx_cs_outry_entity = ('%>' | '</' /script/i ws_or_inl* '>' @check_blank_outry) @code;
``` -/
def vb_aspx_cs_outry_entity : Rx := .fin (.alts [.lit [37, 62], .seqs [.lit [60, 47], .seqs [.cls (Cls.chars [83, 115]), .cls (Cls.chars [67, 99]), .cls (Cls.chars [82, 114]), .cls (Cls.chars [73, 105]), .cls (Cls.chars [80, 112]), .cls (Cls.chars [84, 116])], .star (ws_or_inl), .fin (.cls (Cls.chr 62)) (.emb .outry)]]) .code

/-- src/parsers/visual_basic.rl:65
```
  vb_comment_entity = ('\'' | /rem/i) nonnewline*;
``` -/
def vb_comment_entity : Rx := .seqs [.alts [.cls (Cls.chr 39), .seqs [.cls (Cls.chars [82, 114]), .cls (Cls.chars [69, 101]), .cls (Cls.chars [77, 109])]], .star (.cls (Common.nonnewline))]

/-- Machine 9: src/parsers/vb_aspx.rl:181-188.
```
  vb_aspx_cs_entity := |*
    vb_aspx_cs_outry_entity @{ fret; };
    # unmodified C patterns
    space+              ${ entity = VB_SPACE;   } => vb_ecallback;
    vb_comment_entity ${ entity = VB_COMMENT; } => vb_ecallback;
    # TODO:
    ^space;
  *|;
``` -/
def vb_aspx_cs_entity : EScanner where
  pats := [
  (.fin (vb_aspx_cs_outry_entity) (.emb .ret), .none),
  (.all (.plus (.cls (Common.space))) (.setEnt (.own 0)), .ecb 3),
  (.all (vb_comment_entity) (.setEnt (.own 1)), .ecb 3),
  (.cls (Cls.neg (Common.space)), .none)]
  scanner := true

/-- src/parsers/vb_aspx.rl:157
```
  vb_aspx_css_entry_entity = '<' /style/i [^>]+ :>> 'text/css' [^>]+ '>';
``` -/
def vb_aspx_css_entry_entity : Rx := .seqs [.guard (.seqs [.cls (Cls.chr 60), .seqs [.cls (Cls.chars [83, 115]), .cls (Cls.chars [84, 116]), .cls (Cls.chars [89, 121]), .cls (Cls.chars [76, 108]), .cls (Cls.chars [69, 101])], .plus (.cls (Cls.neg (Cls.chr 62)))]) (.lit [116, 101, 120, 116, 47, 99, 115, 115]), .plus (.cls (Cls.neg (Cls.chr 62))), .cls (Cls.chr 62)]

/-- src/parsers/vb_aspx.rl:168
```
  vb_aspx_js_entry_entity = '<' /script/i [^>]+ :>> 'text/javascript' [^>]+ '>';
``` -/
def vb_aspx_js_entry_entity : Rx := .seqs [.guard (.seqs [.cls (Cls.chr 60), .seqs [.cls (Cls.chars [83, 115]), .cls (Cls.chars [67, 99]), .cls (Cls.chars [82, 114]), .cls (Cls.chars [73, 105]), .cls (Cls.chars [80, 112]), .cls (Cls.chars [84, 116])], .plus (.cls (Cls.neg (Cls.chr 62)))]) (.lit [116, 101, 120, 116, 47, 106, 97, 118, 97, 115, 99, 114, 105, 112, 116]), .plus (.cls (Cls.neg (Cls.chr 62))), .cls (Cls.chr 62)]

/-- src/parsers/vb_aspx.rl:179
```
  vb_aspx_cs_entry_entity = ('<%' | '<' /script/i [^>]+ :>> 'server' [^>]+ '>') @code;
``` -/
def vb_aspx_cs_entry_entity : Rx := .fin (.alts [.lit [60, 37], .seqs [.guard (.seqs [.cls (Cls.chr 60), .seqs [.cls (Cls.chars [83, 115]), .cls (Cls.chars [67, 99]), .cls (Cls.chars [82, 114]), .cls (Cls.chars [73, 105]), .cls (Cls.chars [80, 112]), .cls (Cls.chars [84, 116])], .plus (.cls (Cls.neg (Cls.chr 62)))]) (.lit [115, 101, 114, 118, 101, 114]), .plus (.cls (Cls.neg (Cls.chr 62))), .cls (Cls.chr 62)]]) .code

/-- src/parsers/vb_aspx.rl:190
```
  vb_aspx_comment_entity = '<!--' any* :>> '-->';
``` -/
def vb_aspx_comment_entity : Rx := .guard (.seqs [.lit [60, 33, 45, 45], .star (.cls (Cls.any))]) (.lit [45, 45, 62])

/-- Machine 10: src/parsers/vb_aspx.rl:192-202.
```
  vb_aspx_entity := |*
    # TODO: vb_aspx_ecallback for vb_aspx_*_{entry,outry}_entity
    vb_aspx_css_entry_entity  => { fcall vb_aspx_css_entity;  };
    vb_aspx_js_entry_entity   => { fcall vb_aspx_js_entity;   };
    vb_aspx_cs_entry_entity => { fcall vb_aspx_cs_entity; };
    # standard VB_ASPX patterns
    space+               ${ entity = VB_ASPX_SPACE;   } => vb_aspx_ecallback;
    vb_aspx_comment_entity ${ entity = VB_ASPX_COMMENT; } => vb_aspx_ecallback;
    # TODO:
    ^space;
  *|;
``` -/
def vb_aspx_entity : EScanner where
  pats := [
  (vb_aspx_css_entry_entity, .call 7),
  (vb_aspx_js_entry_entity, .call 8),
  (vb_aspx_cs_entry_entity, .call 9),
  (.all (.plus (.cls (Common.space))) (.setEnt (.own 0)), .ecb 0),
  (.all (vb_aspx_comment_entity) (.setEnt (.own 1)), .ecb 0),
  (.cls (Cls.neg (Common.space)), .none)]
  scanner := true

/-- `parse_vb_aspx`, src/parsers/vb_aspx.rl:218-233; the callbacks are src/parsers/vb_aspx.rl:38-55, src/parsers/css.rl:33-47, src/parsers/javascript.rl:33-47, src/parsers/visual_basic.rl:31-45. -/
def parser : EParser where
  name := "parse_vb_aspx"
  langs := ["html", "css", "javascript", "visualbasic"]
  sws := [
    [((.own 0), .ls), ((.own 5), .code), (.internalNl, .embInternalNewline), (.newline, .embNewline), (.checkBlank, .checkBlank)],
    [((.own 0), .ls), ((.own 9), .code), (.internalNl, .internalNewline), (.newline, .newline)],
    [((.own 0), .ls), ((.own 7), .code), (.internalNl, .internalNewline), (.newline, .newline)],
    [((.own 0), .ls), ((.own 3), .code), (.internalNl, .internalNewline), (.newline, .newline)]]
  machs := [vb_aspx_comment, vb_aspx_sq_str, vb_aspx_dq_str, vb_aspx_css_line, vb_aspx_js_line, vb_aspx_cs_line, vb_aspx_line, vb_aspx_css_entity, vb_aspx_js_entity, vb_aspx_cs_entity, vb_aspx_entity]
  line := 6
  entity := 10

end Ohcount.Gram.Emb.VbAspx

