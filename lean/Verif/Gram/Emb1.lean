import Verif.Gram.Common
import Verif.RagelEmbed

/-! Parsers with embedded languages, transcribed from src/parsers/: html.rl, mxml.rl, nix.rl, coffeescript.rl, metapost_with_tex.rl. Generated by tools/gen_embedded.py. -/

/-! ### html.rl -/

namespace Ohcount.Gram.Emb.Html
open Ohcount.Ragel

/-- src/parsers/html.rl:70
```
  ws_or_inl = (ws | newline @{ entity = INTERNAL_NL; } %html_ccallback);
``` -/
def ws_or_inl : Rx := .alts [.cls (Common.ws), .leave (.fin (Common.newline) (.setEnt .internalNl)) .cb]

/-- src/parsers/html.rl:73
```
  html_css_outry = '</' /style/i ws_or_inl* '>' @check_blank_outry @code;
``` -/
def html_css_outry : Rx := .seqs [.lit [60, 47], .seqs [.cls (Cls.chars [83, 115]), .cls (Cls.chars [84, 116]), .cls (Cls.chars [89, 121]), .cls (Cls.chars [76, 108]), .cls (Cls.chars [69, 101])], .star (ws_or_inl), .fin (.fin (.cls (Cls.chr 62)) (.emb .outry)) .code]

/-- src/parsers/css.rl:49-56
```
  css_comment =
    '/*' @comment (
      newline %{ entity = INTERNAL_NL; } %css_ccallback
      |
      ws
      |
      (nonnewline - ws) @comment
    )* :>> '*/';
``` -/
def css_comment : Rx := .guard (.seqs [.fin (.lit [47, 42]) .comment, .star (.alts [.leave (.leave (Common.newline) (.setEnt .internalNl)) (.emb (.cb 1)), .cls (Common.ws), .fin (.cls (Cls.diff (Common.nonnewline) (Common.ws))) .comment])]) (.lit [42, 47])

/-- src/parsers/css.rl:58-67
```
  css_sq_str =
    '\'' @code (
      newline %{ entity = INTERNAL_NL; } %css_ccallback
      |
      ws
      |
      [^\r\n\f\t '\\] @code
      |
      '\\' nonnewline @code
    )* '\'';
``` -/
def css_sq_str : Rx := .seqs [.fin (.cls (Cls.chr 39)) .code, .star (.alts [.leave (.leave (Common.newline) (.setEnt .internalNl)) (.emb (.cb 1)), .cls (Common.ws), .fin (.cls (Cls.neg (Cls.ranges [(9, 10), (12, 13), (32, 32), (39, 39), (92, 92)]))) .code, .seqs [.cls (Cls.chr 92), .fin (.cls (Common.nonnewline)) .code]]), .cls (Cls.chr 39)]

/-- src/parsers/css.rl:68-77
```
  css_dq_str =
    '"' @code (
      newline %{ entity = INTERNAL_NL; } %css_ccallback
      |
      ws
      |
      [^\r\n\f\t "\\] @code
      |
      '\\' nonnewline @code
    )* '"';
``` -/
def css_dq_str : Rx := .seqs [.fin (.cls (Cls.chr 34)) .code, .star (.alts [.leave (.leave (Common.newline) (.setEnt .internalNl)) (.emb (.cb 1)), .cls (Common.ws), .fin (.cls (Cls.neg (Cls.ranges [(9, 10), (12, 13), (32, 32), (34, 34), (92, 92)]))) .code, .seqs [.cls (Cls.chr 92), .fin (.cls (Common.nonnewline)) .code]]), .cls (Cls.chr 34)]

/-- src/parsers/css.rl:78
```
  css_string = css_sq_str | css_dq_str;
``` -/
def css_string : Rx := .alts [css_sq_str, css_dq_str]

/-- Machine 0: src/parsers/html.rl:74-82.
```
  html_css_line := |*
    html_css_outry @{ p = ts; fret; };
    # unmodified CSS patterns
    spaces      ${ entity = CSS_SPACE; } => css_ccallback;
    css_comment;
    css_string;
    newline     ${ entity = NEWLINE;   } => css_ccallback;
    ^space      ${ entity = CSS_ANY;   } => css_ccallback;
  *|;
``` -/
def html_css_line : EScanner where
  pats := [
  (.fin (html_css_outry) (.emb .back), .none),
  (.all (Common.spaces) (.setEnt (.own 0)), .cb 1),
  (css_comment, .none),
  (css_string, .none),
  (.all (Common.newline) (.setEnt .newline), .cb 1),
  (.all (.cls (Cls.neg (Common.space))) (.setEnt (.own 9)), .cb 1)]
  scanner := true

/-- src/parsers/html.rl:85
```
  html_js_outry = '</' /script/i ws_or_inl* '>' @check_blank_outry @code;
``` -/
def html_js_outry : Rx := .seqs [.lit [60, 47], .seqs [.cls (Cls.chars [83, 115]), .cls (Cls.chars [67, 99]), .cls (Cls.chars [82, 114]), .cls (Cls.chars [73, 105]), .cls (Cls.chars [80, 112]), .cls (Cls.chars [84, 116])], .star (ws_or_inl), .fin (.fin (.cls (Cls.chr 62)) (.emb .outry)) .code]

/-- src/parsers/javascript.rl:49
```
  js_line_comment = '//' @comment nonnewline*;
``` -/
def js_line_comment : Rx := .seqs [.fin (.lit [47, 47]) .comment, .star (.cls (Common.nonnewline))]

/-- src/parsers/javascript.rl:50-57
```
  js_block_comment =
    '/*' @comment (
      newline %{ entity = INTERNAL_NL; } %js_ccallback
      |
      ws
      |
      (nonnewline - ws) @comment
    )* :>> '*/';
``` -/
def js_block_comment : Rx := .guard (.seqs [.fin (.lit [47, 42]) .comment, .star (.alts [.leave (.leave (Common.newline) (.setEnt .internalNl)) (.emb (.cb 2)), .cls (Common.ws), .fin (.cls (Cls.diff (Common.nonnewline) (Common.ws))) .comment])]) (.lit [42, 47])

/-- src/parsers/javascript.rl:58
```
  js_comment = js_line_comment | js_block_comment;
``` -/
def js_comment : Rx := .alts [js_line_comment, js_block_comment]

/-- src/parsers/javascript.rl:62-71
```
  js_sq_str =
    '\'' @code (
      escaped_newline %{ entity = INTERNAL_NL; } %js_ccallback
      |
      ws
      |
      [^\t '\\] @code
      |
      '\\' nonnewline @code
    )* '\'';
``` -/
def js_sq_str : Rx := .seqs [.fin (.cls (Cls.chr 39)) .code, .star (.alts [.leave (.leave (Common.escaped_newline) (.setEnt .internalNl)) (.emb (.cb 2)), .cls (Common.ws), .fin (.cls (Cls.neg (Cls.chars [9, 32, 39, 92]))) .code, .seqs [.cls (Cls.chr 92), .fin (.cls (Common.nonnewline)) .code]]), .cls (Cls.chr 39)]

/-- src/parsers/javascript.rl:72-81
```
  js_dq_str =
    '"' @code (
      escaped_newline %{ entity = INTERNAL_NL; } %js_ccallback
      |
      ws
      |
      [^\t "\\] @code
      |
      '\\' nonnewline @code
    )* '"';
``` -/
def js_dq_str : Rx := .seqs [.fin (.cls (Cls.chr 34)) .code, .star (.alts [.leave (.leave (Common.escaped_newline) (.setEnt .internalNl)) (.emb (.cb 2)), .cls (Common.ws), .fin (.cls (Cls.neg (Cls.chars [9, 32, 34, 92]))) .code, .seqs [.cls (Cls.chr 92), .fin (.cls (Common.nonnewline)) .code]]), .cls (Cls.chr 34)]

/-- src/parsers/javascript.rl:82
```
  js_regex_str = '/' [^/*] ([^\r\n\f/\\] | '\\' nonnewline)* '/' @code;
``` -/
def js_regex_str : Rx := .seqs [.cls (Cls.chr 47), .cls (Cls.neg (Cls.chars [42, 47])), .star (.alts [.cls (Cls.neg (Cls.ranges [(10, 10), (12, 13), (47, 47), (92, 92)])), .seqs [.cls (Cls.chr 92), .cls (Common.nonnewline)]]), .fin (.cls (Cls.chr 47)) .code]

/-- src/parsers/javascript.rl:83
```
  js_string = js_sq_str | js_dq_str | js_regex_str;
``` -/
def js_string : Rx := .alts [js_sq_str, js_dq_str, js_regex_str]

/-- Machine 1: src/parsers/html.rl:86-94.
```
  html_js_line := |*
    html_js_outry @{ p = ts; fret; };
    # unmodified Javascript patterns
    spaces     ${ entity = JS_SPACE; } => js_ccallback;
    js_comment;
    js_string;
    newline    ${ entity = NEWLINE;  } => js_ccallback;
    ^space     ${ entity = JS_ANY;   } => js_ccallback;
  *|;
``` -/
def html_js_line : EScanner where
  pats := [
  (.fin (html_js_outry) (.emb .back), .none),
  (.all (Common.spaces) (.setEnt (.own 0)), .cb 2),
  (js_comment, .none),
  (js_string, .none),
  (.all (Common.newline) (.setEnt .newline), .cb 2),
  (.all (.cls (Cls.neg (Common.space))) (.setEnt (.own 7)), .cb 2)]
  scanner := true

/-- src/parsers/html.rl:72
```
  html_css_entry = '<' /style/i [^>]+ :>> 'text/css' [^>]+ '>' @code;
``` -/
def html_css_entry : Rx := .seqs [.guard (.seqs [.cls (Cls.chr 60), .seqs [.cls (Cls.chars [83, 115]), .cls (Cls.chars [84, 116]), .cls (Cls.chars [89, 121]), .cls (Cls.chars [76, 108]), .cls (Cls.chars [69, 101])], .plus (.cls (Cls.neg (Cls.chr 62)))]) (.lit [116, 101, 120, 116, 47, 99, 115, 115]), .plus (.cls (Cls.neg (Cls.chr 62))), .fin (.cls (Cls.chr 62)) .code]

/-- src/parsers/html.rl:84
```
  html_js_entry = '<' /script/i [^>]+ :>> 'text/javascript' [^>]+ '>' @code;
``` -/
def html_js_entry : Rx := .seqs [.guard (.seqs [.cls (Cls.chr 60), .seqs [.cls (Cls.chars [83, 115]), .cls (Cls.chars [67, 99]), .cls (Cls.chars [82, 114]), .cls (Cls.chars [73, 105]), .cls (Cls.chars [80, 112]), .cls (Cls.chars [84, 116])], .plus (.cls (Cls.neg (Cls.chr 62)))]) (.lit [116, 101, 120, 116, 47, 106, 97, 118, 97, 115, 99, 114, 105, 112, 116]), .plus (.cls (Cls.neg (Cls.chr 62))), .fin (.cls (Cls.chr 62)) .code]

/-- src/parsers/html.rl:57-64
```
  html_comment =
    '<!--' @comment (
      newline %{ entity = INTERNAL_NL; } %html_ccallback
      |
      ws
      |
      (nonnewline - ws) @comment
    )* :>> '-->';
``` -/
def html_comment : Rx := .guard (.seqs [.fin (.lit [60, 33, 45, 45]) .comment, .star (.alts [.leave (.leave (Common.newline) (.setEnt .internalNl)) .cb, .cls (Common.ws), .fin (.cls (Cls.diff (Common.nonnewline) (Common.ws))) .comment])]) (.lit [45, 45, 62])

/-- src/parsers/html.rl:66
```
  html_sq_str = '\'' ([^\r\n\f'\\] | '\\' nonnewline)* '\'' @code;
``` -/
def html_sq_str : Rx := .seqs [.cls (Cls.chr 39), .star (.alts [.cls (Cls.neg (Cls.ranges [(10, 10), (12, 13), (39, 39), (92, 92)])), .seqs [.cls (Cls.chr 92), .cls (Common.nonnewline)]]), .fin (.cls (Cls.chr 39)) .code]

/-- src/parsers/html.rl:67
```
  html_dq_str = '"' ([^\r\n\f"\\] | '\\' nonnewline)* '"' @code;
``` -/
def html_dq_str : Rx := .seqs [.cls (Cls.chr 34), .star (.alts [.cls (Cls.neg (Cls.ranges [(10, 10), (12, 13), (34, 34), (92, 92)])), .seqs [.cls (Cls.chr 92), .cls (Common.nonnewline)]]), .fin (.cls (Cls.chr 34)) .code]

/-- src/parsers/html.rl:68
```
  html_string = html_sq_str | html_dq_str;
``` -/
def html_string : Rx := .alts [html_sq_str, html_dq_str]

/-- Machine 2: src/parsers/html.rl:96-107.
```
  html_line := |*
    html_css_entry @{ entity = CHECK_BLANK_ENTRY; } @html_ccallback
      @{ saw(CSS_LANG); } => { fcall html_css_line; };
    html_js_entry @{ entity = CHECK_BLANK_ENTRY; } @html_ccallback
      @{ saw(JS_LANG); } => { fcall html_js_line; };
    # standard HTML patterns
    spaces       ${ entity = HTML_SPACE; } => html_ccallback;
    html_comment;
    html_string;
    newline      ${ entity = NEWLINE;    } => html_ccallback;
    ^space       ${ entity = HTML_ANY;   } => html_ccallback;
  *|;
``` -/
def html_line : EScanner where
  pats := [
  (.fin (.fin (.fin (html_css_entry) (.setEnt .checkBlank)) .cb) (.emb (.saw 1)), .call 0),
  (.fin (.fin (.fin (html_js_entry) (.setEnt .checkBlank)) .cb) (.emb (.saw 2)), .call 1),
  (.all (Common.spaces) (.setEnt (.own 0)), .cb 0),
  (html_comment, .none),
  (html_string, .none),
  (.all (Common.newline) (.setEnt .newline), .cb 0),
  (.all (.cls (Cls.neg (Common.space))) (.setEnt (.own 5)), .cb 0)]
  scanner := true

/-- src/parsers/html.rl:116
```
  html_css_outry_entity = '</' /style/i ws_or_inl* '>';
``` -/
def html_css_outry_entity : Rx := .seqs [.lit [60, 47], .seqs [.cls (Cls.chars [83, 115]), .cls (Cls.chars [84, 116]), .cls (Cls.chars [89, 121]), .cls (Cls.chars [76, 108]), .cls (Cls.chars [69, 101])], .star (ws_or_inl), .cls (Cls.chr 62)]

/-- src/parsers/css.rl:94
```
  css_comment_entity = '/*' any* :>> '*/';
``` -/
def css_comment_entity : Rx := .guard (.seqs [.lit [47, 42], .star (.cls (Cls.any))]) (.lit [42, 47])

/-- Machine 3: src/parsers/html.rl:117-124.
```
  html_css_entity := |*
    html_css_outry_entity @{ fret; };
    # unmodified CSS patterns
    space+             ${ entity = CSS_SPACE;   } => css_ecallback;
    css_comment_entity ${ entity = CSS_COMMENT; } => css_ecallback;
    # TODO:
    ^space;
  *|;
``` -/
def html_css_entity : EScanner where
  pats := [
  (.fin (html_css_outry_entity) (.emb .ret), .none),
  (.all (.plus (.cls (Common.space))) (.setEnt (.own 0)), .ecb 1),
  (.all (css_comment_entity) (.setEnt (.own 1)), .ecb 1),
  (.cls (Cls.neg (Common.space)), .none)]
  scanner := true

/-- src/parsers/html.rl:127
```
  html_js_outry_entity = '</' /script/i ws_or_inl* '>';
``` -/
def html_js_outry_entity : Rx := .seqs [.lit [60, 47], .seqs [.cls (Cls.chars [83, 115]), .cls (Cls.chars [67, 99]), .cls (Cls.chars [82, 114]), .cls (Cls.chars [73, 105]), .cls (Cls.chars [80, 112]), .cls (Cls.chars [84, 116])], .star (ws_or_inl), .cls (Cls.chr 62)]

/-- src/parsers/javascript.rl:99
```
  js_line_comment_entity = '//' nonnewline*;
``` -/
def js_line_comment_entity : Rx := .seqs [.lit [47, 47], .star (.cls (Common.nonnewline))]

/-- src/parsers/javascript.rl:100
```
  js_block_comment_entity = '/*' any* :>> '*/';
``` -/
def js_block_comment_entity : Rx := .guard (.seqs [.lit [47, 42], .star (.cls (Cls.any))]) (.lit [42, 47])

/-- src/parsers/javascript.rl:101
```
  js_comment_entity = js_line_comment_entity | js_block_comment_entity;
``` -/
def js_comment_entity : Rx := .alts [js_line_comment_entity, js_block_comment_entity]

/-- Machine 4: src/parsers/html.rl:128-135.
```
  html_js_entity := |*
    html_js_outry_entity @{ fret; };
    # unmodified Javascript patterns
    space+            ${ entity = JS_SPACE;   } => js_ecallback;
    js_comment_entity ${ entity = JS_COMMENT; } => js_ecallback;
    # TODO:
    ^space;
  *|;
``` -/
def html_js_entity : EScanner where
  pats := [
  (.fin (html_js_outry_entity) (.emb .ret), .none),
  (.all (.plus (.cls (Common.space))) (.setEnt (.own 0)), .ecb 2),
  (.all (js_comment_entity) (.setEnt (.own 1)), .ecb 2),
  (.cls (Cls.neg (Common.space)), .none)]
  scanner := true

/-- src/parsers/html.rl:115
```
  html_css_entry_entity = '<' /style/i [^>]+ :>> 'text/css' [^>]+ '>';
``` -/
def html_css_entry_entity : Rx := .seqs [.guard (.seqs [.cls (Cls.chr 60), .seqs [.cls (Cls.chars [83, 115]), .cls (Cls.chars [84, 116]), .cls (Cls.chars [89, 121]), .cls (Cls.chars [76, 108]), .cls (Cls.chars [69, 101])], .plus (.cls (Cls.neg (Cls.chr 62)))]) (.lit [116, 101, 120, 116, 47, 99, 115, 115]), .plus (.cls (Cls.neg (Cls.chr 62))), .cls (Cls.chr 62)]

/-- src/parsers/html.rl:126
```
  html_js_entry_entity = '<' /script/i [^>]+ :>> 'text/javascript' [^>]+ '>';
``` -/
def html_js_entry_entity : Rx := .seqs [.guard (.seqs [.cls (Cls.chr 60), .seqs [.cls (Cls.chars [83, 115]), .cls (Cls.chars [67, 99]), .cls (Cls.chars [82, 114]), .cls (Cls.chars [73, 105]), .cls (Cls.chars [80, 112]), .cls (Cls.chars [84, 116])], .plus (.cls (Cls.neg (Cls.chr 62)))]) (.lit [116, 101, 120, 116, 47, 106, 97, 118, 97, 115, 99, 114, 105, 112, 116]), .plus (.cls (Cls.neg (Cls.chr 62))), .cls (Cls.chr 62)]

/-- src/parsers/html.rl:137
```
  html_comment_entity = '<!--' any* :>> '-->';
``` -/
def html_comment_entity : Rx := .guard (.seqs [.lit [60, 33, 45, 45], .star (.cls (Cls.any))]) (.lit [45, 45, 62])

/-- Machine 5: src/parsers/html.rl:139-148.
```
  html_entity := |*
    # TODO: html_ecallback for html_*_{entry,outry}_entity
    html_css_entry_entity => { fcall html_css_entity; };
    html_js_entry_entity  => { fcall html_js_entity;  };
    # standard HTML patterns
    space+              ${ entity = HTML_SPACE;   } => html_ecallback;
    html_comment_entity ${ entity = HTML_COMMENT; } => html_ecallback;
    # TODO:
    ^space;
  *|;
``` -/
def html_entity : EScanner where
  pats := [
  (html_css_entry_entity, .call 3),
  (html_js_entry_entity, .call 4),
  (.all (.plus (.cls (Common.space))) (.setEnt (.own 0)), .ecb 0),
  (.all (html_comment_entity) (.setEnt (.own 1)), .ecb 0),
  (.cls (Cls.neg (Common.space)), .none)]
  scanner := true

/-- `parse_html`, src/parsers/html.rl:164-177; the callbacks are src/parsers/html.rl:38-55, src/parsers/css.rl:33-47, src/parsers/javascript.rl:33-47. -/
def parser : EParser where
  name := "parse_html"
  langs := ["html", "css", "javascript"]
  sws := [
    [((.own 0), .ls), ((.own 5), .code), (.internalNl, .internalNewline), (.newline, .newline), (.checkBlank, .checkBlank)],
    [((.own 0), .ls), ((.own 9), .code), (.internalNl, .internalNewline), (.newline, .newline)],
    [((.own 0), .ls), ((.own 7), .code), (.internalNl, .internalNewline), (.newline, .newline)]]
  machs := [html_css_line, html_js_line, html_line, html_css_entity, html_js_entity, html_entity]
  line := 2
  entity := 5

end Ohcount.Gram.Emb.Html

/-! ### mxml.rl -/

namespace Ohcount.Gram.Emb.Mxml
open Ohcount.Ragel

/-- src/parsers/mxml.rl:91
```
  mxml_css_outry = '</mx:Style>' @check_blank_outry @code;
``` -/
def mxml_css_outry : Rx := .fin (.fin (.lit [60, 47, 109, 120, 58, 83, 116, 121, 108, 101, 62]) (.emb .outry)) .code

/-- src/parsers/css.rl:49-56
```
  css_comment =
    '/*' @comment (
      newline %{ entity = INTERNAL_NL; } %css_ccallback
      |
      ws
      |
      (nonnewline - ws) @comment
    )* :>> '*/';
``` -/
def css_comment : Rx := .guard (.seqs [.fin (.lit [47, 42]) .comment, .star (.alts [.leave (.leave (Common.newline) (.setEnt .internalNl)) (.emb (.cb 1)), .cls (Common.ws), .fin (.cls (Cls.diff (Common.nonnewline) (Common.ws))) .comment])]) (.lit [42, 47])

/-- src/parsers/css.rl:58-67
```
  css_sq_str =
    '\'' @code (
      newline %{ entity = INTERNAL_NL; } %css_ccallback
      |
      ws
      |
      [^\r\n\f\t '\\] @code
      |
      '\\' nonnewline @code
    )* '\'';
``` -/
def css_sq_str : Rx := .seqs [.fin (.cls (Cls.chr 39)) .code, .star (.alts [.leave (.leave (Common.newline) (.setEnt .internalNl)) (.emb (.cb 1)), .cls (Common.ws), .fin (.cls (Cls.neg (Cls.ranges [(9, 10), (12, 13), (32, 32), (39, 39), (92, 92)]))) .code, .seqs [.cls (Cls.chr 92), .fin (.cls (Common.nonnewline)) .code]]), .cls (Cls.chr 39)]

/-- src/parsers/css.rl:68-77
```
  css_dq_str =
    '"' @code (
      newline %{ entity = INTERNAL_NL; } %css_ccallback
      |
      ws
      |
      [^\r\n\f\t "\\] @code
      |
      '\\' nonnewline @code
    )* '"';
``` -/
def css_dq_str : Rx := .seqs [.fin (.cls (Cls.chr 34)) .code, .star (.alts [.leave (.leave (Common.newline) (.setEnt .internalNl)) (.emb (.cb 1)), .cls (Common.ws), .fin (.cls (Cls.neg (Cls.ranges [(9, 10), (12, 13), (32, 32), (34, 34), (92, 92)]))) .code, .seqs [.cls (Cls.chr 92), .fin (.cls (Common.nonnewline)) .code]]), .cls (Cls.chr 34)]

/-- src/parsers/css.rl:78
```
  css_string = css_sq_str | css_dq_str;
``` -/
def css_string : Rx := .alts [css_sq_str, css_dq_str]

/-- Machine 0: src/parsers/mxml.rl:92-100.
```
  mxml_css_line := |*
    mxml_css_outry @{ p = ts; fret; };
    # unmodified CSS patterns
    spaces      ${ entity = CSS_SPACE; } => css_ccallback;
    css_comment;
    css_string;
    newline     ${ entity = NEWLINE;   } => css_ccallback;
    ^space      ${ entity = CSS_ANY;   } => css_ccallback;
  *|;
``` -/
def mxml_css_line : EScanner where
  pats := [
  (.fin (mxml_css_outry) (.emb .back), .none),
  (.all (Common.spaces) (.setEnt (.own 0)), .cb 1),
  (css_comment, .none),
  (css_string, .none),
  (.all (Common.newline) (.setEnt .newline), .cb 1),
  (.all (.cls (Cls.neg (Common.space))) (.setEnt (.own 9)), .cb 1)]
  scanner := true

/-- src/parsers/mxml.rl:103
```
  mxml_as_outry = '</mx:Script>' @check_blank_outry @code;
``` -/
def mxml_as_outry : Rx := .fin (.fin (.lit [60, 47, 109, 120, 58, 83, 99, 114, 105, 112, 116, 62]) (.emb .outry)) .code

/-- src/parsers/actionscript.rl:47
```
  as_line_comment = '//' @comment nonnewline*;
``` -/
def as_line_comment : Rx := .seqs [.fin (.lit [47, 47]) .comment, .star (.cls (Common.nonnewline))]

/-- src/parsers/actionscript.rl:48-55
```
  as_block_comment =
    '/*' @comment (
      newline %{ entity = INTERNAL_NL; } %as_ccallback
      |
      ws
      |
      (nonnewline - ws) @comment
    )* :>> '*/';
``` -/
def as_block_comment : Rx := .guard (.seqs [.fin (.lit [47, 42]) .comment, .star (.alts [.leave (.leave (Common.newline) (.setEnt .internalNl)) (.emb (.cb 2)), .cls (Common.ws), .fin (.cls (Cls.diff (Common.nonnewline) (Common.ws))) .comment])]) (.lit [42, 47])

/-- src/parsers/actionscript.rl:56
```
  as_comment = as_line_comment | as_block_comment;
``` -/
def as_comment : Rx := .alts [as_line_comment, as_block_comment]

/-- src/parsers/actionscript.rl:58
```
  as_sq_str = '\'' @code ([^\r\n\f'\\] | '\\' nonnewline)* '\'';
``` -/
def as_sq_str : Rx := .seqs [.fin (.cls (Cls.chr 39)) .code, .star (.alts [.cls (Cls.neg (Cls.ranges [(10, 10), (12, 13), (39, 39), (92, 92)])), .seqs [.cls (Cls.chr 92), .cls (Common.nonnewline)]]), .cls (Cls.chr 39)]

/-- src/parsers/actionscript.rl:59
```
  as_dq_str = '"' @code ([^\r\n\f"\\] | '\\' nonnewline)* '"';
``` -/
def as_dq_str : Rx := .seqs [.fin (.cls (Cls.chr 34)) .code, .star (.alts [.cls (Cls.neg (Cls.ranges [(10, 10), (12, 13), (34, 34), (92, 92)])), .seqs [.cls (Cls.chr 92), .cls (Common.nonnewline)]]), .cls (Cls.chr 34)]

/-- src/parsers/actionscript.rl:60-66
```
  as_ml_str = '<![CDATA[' @code (
    newline %{ entity = INTERNAL_NL; } %as_ccallback
    |
    ws
    |
    (nonnewline - ws) @code
  )* :>> ']]>';
``` -/
def as_ml_str : Rx := .guard (.seqs [.fin (.lit [60, 33, 91, 67, 68, 65, 84, 65, 91]) .code, .star (.alts [.leave (.leave (Common.newline) (.setEnt .internalNl)) (.emb (.cb 2)), .cls (Common.ws), .fin (.cls (Cls.diff (Common.nonnewline) (Common.ws))) .code])]) (.lit [93, 93, 62])

/-- src/parsers/actionscript.rl:67
```
  as_string = as_sq_str | as_dq_str | as_ml_str;
``` -/
def as_string : Rx := .alts [as_sq_str, as_dq_str, as_ml_str]

/-- Machine 1: src/parsers/mxml.rl:104-112.
```
  mxml_as_line := |*
    mxml_as_outry @{ p = ts; fret; };
    # unmodified Actionscript patterns
    spaces      ${ entity = AS_SPACE; } => as_ccallback;
    as_comment;
    as_string;
    newline     ${ entity = NEWLINE;  } => as_ccallback;
    ^space      ${ entity = AS_ANY;   } => as_ccallback;
  *|;
``` -/
def mxml_as_line : EScanner where
  pats := [
  (.fin (mxml_as_outry) (.emb .back), .none),
  (.all (Common.spaces) (.setEnt (.own 0)), .cb 2),
  (as_comment, .none),
  (as_string, .none),
  (.all (Common.newline) (.setEnt .newline), .cb 2),
  (.all (.cls (Cls.neg (Common.space))) (.setEnt (.own 3)), .cb 2)]
  scanner := true

/-- src/parsers/mxml.rl:90
```
  mxml_css_entry = '<mx:Style>' @code;
``` -/
def mxml_css_entry : Rx := .fin (.lit [60, 109, 120, 58, 83, 116, 121, 108, 101, 62]) .code

/-- src/parsers/mxml.rl:102
```
  mxml_as_entry = '<mx:Script>' @code;
``` -/
def mxml_as_entry : Rx := .fin (.lit [60, 109, 120, 58, 83, 99, 114, 105, 112, 116, 62]) .code

/-- src/parsers/mxml.rl:57-64
```
  mxml_comment =
    '<!--' @comment (
      newline %{ entity = INTERNAL_NL; } %mxml_ccallback
      |
      ws
      |
      (nonnewline - ws) @comment
    )* :>> '-->';
``` -/
def mxml_comment : Rx := .guard (.seqs [.fin (.lit [60, 33, 45, 45]) .comment, .star (.alts [.leave (.leave (Common.newline) (.setEnt .internalNl)) .cb, .cls (Common.ws), .fin (.cls (Cls.diff (Common.nonnewline) (Common.ws))) .comment])]) (.lit [45, 45, 62])

/-- src/parsers/mxml.rl:66-75
```
  mxml_sq_str =
    '\'' @code (
      newline %{ entity = INTERNAL_NL; } %mxml_ccallback
      |
      ws
      |
      [^\r\n\f\t '\\] @code
      |
      '\\' nonnewline @code
    )* '\'';
``` -/
def mxml_sq_str : Rx := .seqs [.fin (.cls (Cls.chr 39)) .code, .star (.alts [.leave (.leave (Common.newline) (.setEnt .internalNl)) .cb, .cls (Common.ws), .fin (.cls (Cls.neg (Cls.ranges [(9, 10), (12, 13), (32, 32), (39, 39), (92, 92)]))) .code, .seqs [.cls (Cls.chr 92), .fin (.cls (Common.nonnewline)) .code]]), .cls (Cls.chr 39)]

/-- src/parsers/mxml.rl:76-85
```
  mxml_dq_str =
    '"' @code (
      newline %{ entity = INTERNAL_NL; } %mxml_ccallback
      |
      ws
      |
      [^\r\n\f\t "\\] @code
      |
      '\\' nonnewline @code
    )* '"';
``` -/
def mxml_dq_str : Rx := .seqs [.fin (.cls (Cls.chr 34)) .code, .star (.alts [.leave (.leave (Common.newline) (.setEnt .internalNl)) .cb, .cls (Common.ws), .fin (.cls (Cls.neg (Cls.ranges [(9, 10), (12, 13), (32, 32), (34, 34), (92, 92)]))) .code, .seqs [.cls (Cls.chr 92), .fin (.cls (Common.nonnewline)) .code]]), .cls (Cls.chr 34)]

/-- src/parsers/mxml.rl:86
```
  mxml_string = mxml_sq_str | mxml_dq_str;
``` -/
def mxml_string : Rx := .alts [mxml_sq_str, mxml_dq_str]

/-- Machine 2: src/parsers/mxml.rl:114-125.
```
  mxml_line := |*
    mxml_css_entry @{ entity = CHECK_BLANK_ENTRY; } @mxml_ccallback
      @{ saw(CSS_LANG); } => { fcall mxml_css_line; };
    mxml_as_entry @{ entity = CHECK_BLANK_ENTRY; } @mxml_ccallback
      @{ saw(AS_LANG); } => { fcall mxml_as_line; };
    # standard MXML patterns
    spaces        ${ entity = MXML_SPACE; } => mxml_ccallback;
    mxml_comment;
    mxml_string;
    newline       ${ entity = NEWLINE;    } => mxml_ccallback;
    ^space        ${ entity = MXML_ANY;   } => mxml_ccallback;
  *|;
``` -/
def mxml_line : EScanner where
  pats := [
  (.fin (.fin (.fin (mxml_css_entry) (.setEnt .checkBlank)) .cb) (.emb (.saw 1)), .call 0),
  (.fin (.fin (.fin (mxml_as_entry) (.setEnt .checkBlank)) .cb) (.emb (.saw 2)), .call 1),
  (.all (Common.spaces) (.setEnt (.own 0)), .cb 0),
  (mxml_comment, .none),
  (mxml_string, .none),
  (.all (Common.newline) (.setEnt .newline), .cb 0),
  (.all (.cls (Cls.neg (Common.space))) (.setEnt (.own 5)), .cb 0)]
  scanner := true

/-- src/parsers/mxml.rl:134
```
  mxml_css_outry_entity = '</mx:Style>';
``` -/
def mxml_css_outry_entity : Rx := .lit [60, 47, 109, 120, 58, 83, 116, 121, 108, 101, 62]

/-- src/parsers/css.rl:94
```
  css_comment_entity = '/*' any* :>> '*/';
``` -/
def css_comment_entity : Rx := .guard (.seqs [.lit [47, 42], .star (.cls (Cls.any))]) (.lit [42, 47])

/-- Machine 3: src/parsers/mxml.rl:135-142.
```
  mxml_css_entity := |*
    mxml_css_outry_entity @{ fret; };
    # unmodified CSS patterns
    space+             ${ entity = CSS_SPACE;   } => css_ecallback;
    css_comment_entity ${ entity = CSS_COMMENT; } => css_ecallback;
    # TODO:
    ^space;
  *|;
``` -/
def mxml_css_entity : EScanner where
  pats := [
  (.fin (mxml_css_outry_entity) (.emb .ret), .none),
  (.all (.plus (.cls (Common.space))) (.setEnt (.own 0)), .ecb 1),
  (.all (css_comment_entity) (.setEnt (.own 1)), .ecb 1),
  (.cls (Cls.neg (Common.space)), .none)]
  scanner := true

/-- src/parsers/mxml.rl:145
```
  mxml_as_outry_entity = '</mx:Script>';
``` -/
def mxml_as_outry_entity : Rx := .lit [60, 47, 109, 120, 58, 83, 99, 114, 105, 112, 116, 62]

/-- src/parsers/actionscript.rl:83
```
  as_line_comment_entity = '//' nonnewline*;
``` -/
def as_line_comment_entity : Rx := .seqs [.lit [47, 47], .star (.cls (Common.nonnewline))]

/-- src/parsers/actionscript.rl:84
```
  as_block_comment_entity = '/*' any* :>> '*/';
``` -/
def as_block_comment_entity : Rx := .guard (.seqs [.lit [47, 42], .star (.cls (Cls.any))]) (.lit [42, 47])

/-- src/parsers/actionscript.rl:85
```
  as_comment_entity = as_line_comment_entity | as_block_comment_entity;
``` -/
def as_comment_entity : Rx := .alts [as_line_comment_entity, as_block_comment_entity]

/-- Machine 4: src/parsers/mxml.rl:146-153.
```
  mxml_as_entity := |*
    mxml_as_outry_entity @{ fret; };
    # unmodified Actionscript patterns
    space+            ${ entity = AS_SPACE;   } => as_ecallback;
    as_comment_entity ${ entity = AS_COMMENT; } => as_ecallback;
    # TODO:
    ^space;
  *|;
``` -/
def mxml_as_entity : EScanner where
  pats := [
  (.fin (mxml_as_outry_entity) (.emb .ret), .none),
  (.all (.plus (.cls (Common.space))) (.setEnt (.own 0)), .ecb 2),
  (.all (as_comment_entity) (.setEnt (.own 1)), .ecb 2),
  (.cls (Cls.neg (Common.space)), .none)]
  scanner := true

/-- src/parsers/mxml.rl:133
```
  mxml_css_entry_entity = '<mx:Style>';
``` -/
def mxml_css_entry_entity : Rx := .lit [60, 109, 120, 58, 83, 116, 121, 108, 101, 62]

/-- src/parsers/mxml.rl:144
```
  mxml_as_entry_entity = '<mx:Script>';
``` -/
def mxml_as_entry_entity : Rx := .lit [60, 109, 120, 58, 83, 99, 114, 105, 112, 116, 62]

/-- src/parsers/mxml.rl:155
```
  mxml_comment_entity = '<!--' any* :>> '-->';
``` -/
def mxml_comment_entity : Rx := .guard (.seqs [.lit [60, 33, 45, 45], .star (.cls (Cls.any))]) (.lit [45, 45, 62])

/-- Machine 5: src/parsers/mxml.rl:157-166.
```
  mxml_entity := |*
    # TODO: mxml_ecallback for mxml_*_{entry,outry}_entity
    mxml_css_entry_entity => { fcall mxml_css_entity; };
    mxml_as_entry_entity  => { fcall mxml_as_entity;  };
    # standard MXML patterns
    space+              ${ entity = MXML_SPACE;   } => mxml_ecallback;
    mxml_comment_entity ${ entity = MXML_COMMENT; } => mxml_ecallback;
    # TODO:
    ^space;
  *|;
``` -/
def mxml_entity : EScanner where
  pats := [
  (mxml_css_entry_entity, .call 3),
  (mxml_as_entry_entity, .call 4),
  (.all (.plus (.cls (Common.space))) (.setEnt (.own 0)), .ecb 0),
  (.all (mxml_comment_entity) (.setEnt (.own 1)), .ecb 0),
  (.cls (Cls.neg (Common.space)), .none)]
  scanner := true

/-- `parse_mxml`, src/parsers/mxml.rl:182-195; the callbacks are src/parsers/mxml.rl:38-55, src/parsers/css.rl:33-47, src/parsers/actionscript.rl:31-45. -/
def parser : EParser where
  name := "parse_mxml"
  langs := ["mxml", "css", "actionscript"]
  sws := [
    [((.own 0), .ls), ((.own 5), .code), (.internalNl, .internalNewline), (.newline, .newline), (.checkBlank, .checkBlank)],
    [((.own 0), .ls), ((.own 9), .code), (.internalNl, .internalNewline), (.newline, .newline)],
    [((.own 0), .ls), ((.own 3), .code), (.internalNl, .internalNewline), (.newline, .newline)]]
  machs := [mxml_css_line, mxml_as_line, mxml_line, mxml_css_entity, mxml_as_entity, mxml_entity]
  line := 2
  entity := 5

end Ohcount.Gram.Emb.Mxml

/-! ### nix.rl -/

namespace Ohcount.Gram.Emb.Nix
open Ohcount.Ragel

/-- src/parsers/nix.rl:65
```
  nix_dq_shell_outry = '"' @check_blank_outry @code;
``` -/
def nix_dq_shell_outry : Rx := .fin (.fin (.cls (Cls.chr 34)) (.emb .outry)) .code

/-- src/parsers/shell.rl:47
```
  shell_comment = '#' @comment nonnewline*;
``` -/
def shell_comment : Rx := .seqs [.fin (.cls (Cls.chr 35)) .comment, .star (.cls (Common.nonnewline))]

/-- src/parsers/shell.rl:49-60
```
  shell_sq_str =
    '\'' @enqueue @code (
      newline %{ entity = INTERNAL_NL; } %shell_ccallback
      |
      '\\' newline %{ entity = INTERNAL_NL; } %shell_ccallback
      |
      ws
      |
      [^\r\n\f\t '\\] @code
      |
      '\\' nonnewline @code
    )* '\'' @commit;
``` -/
def shell_sq_str : Rx := .seqs [.fin (.fin (.cls (Cls.chr 39)) .enqueue) .code, .star (.alts [.leave (.leave (Common.newline) (.setEnt .internalNl)) (.emb (.cb 1)), .seqs [.cls (Cls.chr 92), .leave (.leave (Common.newline) (.setEnt .internalNl)) (.emb (.cb 1))], .cls (Common.ws), .fin (.cls (Cls.neg (Cls.ranges [(9, 10), (12, 13), (32, 32), (39, 39), (92, 92)]))) .code, .seqs [.cls (Cls.chr 92), .fin (.cls (Common.nonnewline)) .code]]), .fin (.cls (Cls.chr 39)) .commit]

/-- src/parsers/shell.rl:61-72
```
  shell_dq_str =
    '"' @enqueue @code (
      newline %{ entity = INTERNAL_NL; } %shell_ccallback
      |
      '\\' newline %{ entity = INTERNAL_NL; } %shell_ccallback
      |
      ws
      |
      [^\r\n\f\t "\\] @code
      |
      '\\' nonnewline @code
    )* '"' @commit;
``` -/
def shell_dq_str : Rx := .seqs [.fin (.fin (.cls (Cls.chr 34)) .enqueue) .code, .star (.alts [.leave (.leave (Common.newline) (.setEnt .internalNl)) (.emb (.cb 1)), .seqs [.cls (Cls.chr 92), .leave (.leave (Common.newline) (.setEnt .internalNl)) (.emb (.cb 1))], .cls (Common.ws), .fin (.cls (Cls.neg (Cls.ranges [(9, 10), (12, 13), (32, 32), (34, 34), (92, 92)]))) .code, .seqs [.cls (Cls.chr 92), .fin (.cls (Common.nonnewline)) .code]]), .fin (.cls (Cls.chr 34)) .commit]

/-- src/parsers/shell.rl:74
```
  shell_string = shell_sq_str | shell_dq_str;
``` -/
def shell_string : Rx := .alts [shell_sq_str, shell_dq_str]

/-- Machine 0: src/parsers/nix.rl:66-75.
```
  nix_dq_shell_line := |*
    nix_dq_shell_outry @{ p = ts; fret; };
    # TODO: Add embeded Nix between '${' and '}'
    # unmodified SHELL patterns
    spaces         ${ entity = SHELL_SPACE; } => shell_ccallback;
    shell_comment;
    shell_string;
    newline        ${ entity = NEWLINE;     } => shell_ccallback;
    ^space         ${ entity = SHELL_ANY;   } => shell_ccallback;
  *|;
``` -/
def nix_dq_shell_line : EScanner where
  pats := [
  (.fin (nix_dq_shell_outry) (.emb .back), .none),
  (.all (Common.spaces) (.setEnt (.own 0)), .cb 1),
  (shell_comment, .none),
  (shell_string, .none),
  (.all (Common.newline) (.setEnt .newline), .cb 1),
  (.all (.cls (Cls.neg (Common.space))) (.setEnt (.own 3)), .cb 1)]
  scanner := true

/-- src/parsers/nix.rl:78
```
  nix_dsq_shell_outry = "''" @check_blank_outry @code;
``` -/
def nix_dsq_shell_outry : Rx := .fin (.fin (.lit [39, 39]) (.emb .outry)) .code

/-- Machine 1: src/parsers/nix.rl:79-88.
```
  nix_dsq_shell_line := |*
    nix_dsq_shell_outry @{ p = ts; fret; };
    # TODO: Add embeded Nix between '${' and '}'
    # unmodified SHELL patterns
    spaces         ${ entity = SHELL_SPACE; } => shell_ccallback;
    shell_comment;
    shell_string;
    newline        ${ entity = NEWLINE;     } => shell_ccallback;
    ^space         ${ entity = SHELL_ANY;   } => shell_ccallback;
  *|;
``` -/
def nix_dsq_shell_line : EScanner where
  pats := [
  (.fin (nix_dsq_shell_outry) (.emb .back), .none),
  (.all (Common.spaces) (.setEnt (.own 0)), .cb 1),
  (shell_comment, .none),
  (shell_string, .none),
  (.all (Common.newline) (.setEnt .newline), .cb 1),
  (.all (.cls (Cls.neg (Common.space))) (.setEnt (.own 3)), .cb 1)]
  scanner := true

/-- src/parsers/nix.rl:64
```
  nix_dq_shell_entry = '"' @code;
``` -/
def nix_dq_shell_entry : Rx := .fin (.cls (Cls.chr 34)) .code

/-- src/parsers/nix.rl:77
```
  nix_dsq_shell_entry = "''" @code;
``` -/
def nix_dsq_shell_entry : Rx := .fin (.lit [39, 39]) .code

/-- src/parsers/nix.rl:51
```
  nix_line_comment = '#' @comment nonnewline*;
``` -/
def nix_line_comment : Rx := .seqs [.fin (.cls (Cls.chr 35)) .comment, .star (.cls (Common.nonnewline))]

/-- src/parsers/nix.rl:53-60
```
  nix_block_comment =
    '/*' @comment (
      newline %{ entity = INTERNAL_NL; } %nix_ccallback
      |
      ws
      |
      (nonnewline - ws) @comment
    )* :>> '*/';
``` -/
def nix_block_comment : Rx := .guard (.seqs [.fin (.lit [47, 42]) .comment, .star (.alts [.leave (.leave (Common.newline) (.setEnt .internalNl)) .cb, .cls (Common.ws), .fin (.cls (Cls.diff (Common.nonnewline) (Common.ws))) .comment])]) (.lit [42, 47])

/-- src/parsers/nix.rl:62
```
  nix_comment = nix_line_comment | nix_block_comment;
``` -/
def nix_comment : Rx := .alts [nix_line_comment, nix_block_comment]

/-- Machine 2: src/parsers/nix.rl:90-100.
```
  nix_line := |*
    nix_dq_shell_entry @{ entity = CHECK_BLANK_ENTRY; } @nix_ccallback
      @{ saw(SHELL_LANG); } => { fcall nix_dq_shell_line; };
    nix_dsq_shell_entry @{ entity = CHECK_BLANK_ENTRY; } @nix_ccallback
      @{ saw(SHELL_LANG); } => { fcall nix_dsq_shell_line; };
    # NIX patterns
    spaces    ${ entity = NIX_SPACE; } => nix_ccallback;
    nix_comment;
    newline   ${ entity = NEWLINE; } => nix_ccallback;
    ^space    ${ entity = NIX_ANY;   } => nix_ccallback;
  *|;
``` -/
def nix_line : EScanner where
  pats := [
  (.fin (.fin (.fin (nix_dq_shell_entry) (.setEnt .checkBlank)) .cb) (.emb (.saw 1)), .call 0),
  (.fin (.fin (.fin (nix_dsq_shell_entry) (.setEnt .checkBlank)) .cb) (.emb (.saw 1)), .call 1),
  (.all (Common.spaces) (.setEnt (.own 0)), .cb 0),
  (nix_comment, .none),
  (.all (Common.newline) (.setEnt .newline), .cb 0),
  (.all (.cls (Cls.neg (Common.space))) (.setEnt (.own 2)), .cb 0)]
  scanner := true

/-- src/parsers/nix.rl:114
```
  nix_dq_shell_outry_entity = '"';
``` -/
def nix_dq_shell_outry_entity : Cls := Cls.chr 34

/-- src/parsers/shell.rl:90
```
  shell_comment_entity = '#' nonnewline*;
``` -/
def shell_comment_entity : Rx := .seqs [.cls (Cls.chr 35), .star (.cls (Common.nonnewline))]

/-- Machine 3: src/parsers/nix.rl:115-123.
```
  nix_dq_shell_entity := |*
    nix_dq_shell_outry_entity @{ fret; };
    # TODO: Add embeded Nix between '${' and '}'
    # unmodified SHELL patterns
    space+               ${ entity = SHELL_SPACE;   } => shell_ecallback;
    shell_comment_entity ${ entity = SHELL_COMMENT; } => shell_ecallback;
    # TODO:
    ^space;
  *|;
``` -/
def nix_dq_shell_entity : EScanner where
  pats := [
  (.fin (.cls (nix_dq_shell_outry_entity)) (.emb .ret), .none),
  (.all (.plus (.cls (Common.space))) (.setEnt (.own 0)), .ecb 1),
  (.all (shell_comment_entity) (.setEnt (.own 1)), .ecb 1),
  (.cls (Cls.neg (Common.space)), .none)]
  scanner := true

/-- src/parsers/nix.rl:126
```
  nix_dsq_shell_outry_entity = "''";
``` -/
def nix_dsq_shell_outry_entity : Rx := .lit [39, 39]

/-- Machine 4: src/parsers/nix.rl:127-135.
```
  nix_dsq_shell_entity := |*
    nix_dsq_shell_outry_entity @{ fret; };
    # TODO: Add embeded Nix between '${' and '}'
    # unmodified SHELL patterns
    space+               ${ entity = SHELL_SPACE;   } => shell_ecallback;
    shell_comment_entity ${ entity = SHELL_COMMENT; } => shell_ecallback;
    # TODO:
    ^space;
  *|;
``` -/
def nix_dsq_shell_entity : EScanner where
  pats := [
  (.fin (nix_dsq_shell_outry_entity) (.emb .ret), .none),
  (.all (.plus (.cls (Common.space))) (.setEnt (.own 0)), .ecb 1),
  (.all (shell_comment_entity) (.setEnt (.own 1)), .ecb 1),
  (.cls (Cls.neg (Common.space)), .none)]
  scanner := true

/-- src/parsers/nix.rl:113
```
  nix_dq_shell_entry_entity = '"';
``` -/
def nix_dq_shell_entry_entity : Cls := Cls.chr 34

/-- src/parsers/nix.rl:125
```
  nix_dsq_shell_entry_entity = "''";
``` -/
def nix_dsq_shell_entry_entity : Rx := .lit [39, 39]

/-- src/parsers/nix.rl:108
```
  nix_line_comment_entity = '#' nonnewline*;
``` -/
def nix_line_comment_entity : Rx := .seqs [.cls (Cls.chr 35), .star (.cls (Common.nonnewline))]

/-- src/parsers/nix.rl:109
```
  nix_block_comment_entity = '/*' any* :>> '*/';
``` -/
def nix_block_comment_entity : Rx := .guard (.seqs [.lit [47, 42], .star (.cls (Cls.any))]) (.lit [42, 47])

/-- src/parsers/nix.rl:110
```
  nix_comment_entity = nix_line_comment_entity | nix_block_comment_entity;
``` -/
def nix_comment_entity : Rx := .alts [nix_line_comment_entity, nix_block_comment_entity]

/-- Machine 5: src/parsers/nix.rl:137-144.
```
  nix_entity := |*
    nix_dq_shell_entry_entity  => { fcall nix_dq_shell_entity;  };
    nix_dsq_shell_entry_entity => { fcall nix_dsq_shell_entity; };
    space+             ${ entity = NIX_SPACE;   } => nix_ecallback;
    nix_comment_entity ${ entity = NIX_COMMENT; } => nix_ecallback;
    # TODO;
    ^space;
  *|;
``` -/
def nix_entity : EScanner where
  pats := [
  (.cls (nix_dq_shell_entry_entity), .call 3),
  (nix_dsq_shell_entry_entity, .call 4),
  (.all (.plus (.cls (Common.space))) (.setEnt (.own 0)), .ecb 0),
  (.all (nix_comment_entity) (.setEnt (.own 1)), .ecb 0),
  (.cls (Cls.neg (Common.space)), .none)]
  scanner := true

/-- `parse_nix`, src/parsers/nix.rl:160-173; the callbacks are src/parsers/nix.rl:32-49, src/parsers/shell.rl:31-45. -/
def parser : EParser where
  name := "parse_nix"
  langs := ["nix", "shell"]
  sws := [
    [((.own 0), .ls), ((.own 2), .code), (.internalNl, .internalNewline), (.newline, .newline), (.checkBlank, .checkBlank)],
    [((.own 0), .ls), ((.own 3), .code), (.internalNl, .internalNewline), (.newline, .newline)]]
  machs := [nix_dq_shell_line, nix_dsq_shell_line, nix_line, nix_dq_shell_entity, nix_dsq_shell_entity, nix_entity]
  line := 2
  entity := 5

end Ohcount.Gram.Emb.Nix

/-! ### coffeescript.rl -/

namespace Ohcount.Gram.Emb.Coffeescript
open Ohcount.Ragel

/-- src/parsers/coffeescript.rl:99
```
  coffeescript_js_outry = '`' @check_blank_outry @code;
``` -/
def coffeescript_js_outry : Rx := .fin (.fin (.cls (Cls.chr 96)) (.emb .outry)) .code

/-- src/parsers/javascript.rl:49
```
  js_line_comment = '//' @comment nonnewline*;
``` -/
def js_line_comment : Rx := .seqs [.fin (.lit [47, 47]) .comment, .star (.cls (Common.nonnewline))]

/-- src/parsers/javascript.rl:50-57
```
  js_block_comment =
    '/*' @comment (
      newline %{ entity = INTERNAL_NL; } %js_ccallback
      |
      ws
      |
      (nonnewline - ws) @comment
    )* :>> '*/';
``` -/
def js_block_comment : Rx := .guard (.seqs [.fin (.lit [47, 42]) .comment, .star (.alts [.leave (.leave (Common.newline) (.setEnt .internalNl)) (.emb (.cb 1)), .cls (Common.ws), .fin (.cls (Cls.diff (Common.nonnewline) (Common.ws))) .comment])]) (.lit [42, 47])

/-- src/parsers/javascript.rl:58
```
  js_comment = js_line_comment | js_block_comment;
``` -/
def js_comment : Rx := .alts [js_line_comment, js_block_comment]

/-- src/parsers/javascript.rl:62-71
```
  js_sq_str =
    '\'' @code (
      escaped_newline %{ entity = INTERNAL_NL; } %js_ccallback
      |
      ws
      |
      [^\t '\\] @code
      |
      '\\' nonnewline @code
    )* '\'';
``` -/
def js_sq_str : Rx := .seqs [.fin (.cls (Cls.chr 39)) .code, .star (.alts [.leave (.leave (Common.escaped_newline) (.setEnt .internalNl)) (.emb (.cb 1)), .cls (Common.ws), .fin (.cls (Cls.neg (Cls.chars [9, 32, 39, 92]))) .code, .seqs [.cls (Cls.chr 92), .fin (.cls (Common.nonnewline)) .code]]), .cls (Cls.chr 39)]

/-- src/parsers/javascript.rl:72-81
```
  js_dq_str =
    '"' @code (
      escaped_newline %{ entity = INTERNAL_NL; } %js_ccallback
      |
      ws
      |
      [^\t "\\] @code
      |
      '\\' nonnewline @code
    )* '"';
``` -/
def js_dq_str : Rx := .seqs [.fin (.cls (Cls.chr 34)) .code, .star (.alts [.leave (.leave (Common.escaped_newline) (.setEnt .internalNl)) (.emb (.cb 1)), .cls (Common.ws), .fin (.cls (Cls.neg (Cls.chars [9, 32, 34, 92]))) .code, .seqs [.cls (Cls.chr 92), .fin (.cls (Common.nonnewline)) .code]]), .cls (Cls.chr 34)]

/-- src/parsers/javascript.rl:82
```
  js_regex_str = '/' [^/*] ([^\r\n\f/\\] | '\\' nonnewline)* '/' @code;
``` -/
def js_regex_str : Rx := .seqs [.cls (Cls.chr 47), .cls (Cls.neg (Cls.chars [42, 47])), .star (.alts [.cls (Cls.neg (Cls.ranges [(10, 10), (12, 13), (47, 47), (92, 92)])), .seqs [.cls (Cls.chr 92), .cls (Common.nonnewline)]]), .fin (.cls (Cls.chr 47)) .code]

/-- src/parsers/javascript.rl:83
```
  js_string = js_sq_str | js_dq_str | js_regex_str;
``` -/
def js_string : Rx := .alts [js_sq_str, js_dq_str, js_regex_str]

/-- Machine 0: src/parsers/coffeescript.rl:100-108.
```
  coffeescript_js_line := |*
    coffeescript_js_outry @{ p = ts; fret; };
    # unmodified JavaScript patterns
    spaces        ${ entity = JS_SPACE; } => js_ccallback;
    js_comment;
    js_string;
    newline       ${ entity = NEWLINE;    } => js_ccallback;
    ^space        ${ entity = JS_ANY;   } => js_ccallback;
  *|;
``` -/
def coffeescript_js_line : EScanner where
  pats := [
  (.fin (coffeescript_js_outry) (.emb .back), .none),
  (.all (Common.spaces) (.setEnt (.own 0)), .cb 1),
  (js_comment, .none),
  (js_string, .none),
  (.all (Common.newline) (.setEnt .newline), .cb 1),
  (.all (.cls (Cls.neg (Common.space))) (.setEnt (.own 7)), .cb 1)]
  scanner := true

/-- src/parsers/coffeescript.rl:98
```
  coffeescript_js_entry = '`' @code;
``` -/
def coffeescript_js_entry : Rx := .fin (.cls (Cls.chr 96)) .code

/-- src/parsers/coffeescript.rl:48
```
  coffeescript_line_comment = ('#') @comment nonnewline*;
``` -/
def coffeescript_line_comment : Rx := .seqs [.fin (.cls (Cls.chr 35)) .comment, .star (.cls (Common.nonnewline))]

/-- src/parsers/coffeescript.rl:49-56
```
  coffeescript_block_comment =
    '###' @comment (
      newline %{ entity = INTERNAL_NL; } %coffeescript_ccallback
      |
      ws
      |
      (nonnewline - ws) @comment
    )* :>> '###';
``` -/
def coffeescript_block_comment : Rx := .guard (.seqs [.fin (.lit [35, 35, 35]) .comment, .star (.alts [.leave (.leave (Common.newline) (.setEnt .internalNl)) .cb, .cls (Common.ws), .fin (.cls (Cls.diff (Common.nonnewline) (Common.ws))) .comment])]) (.lit [35, 35, 35])

/-- src/parsers/coffeescript.rl:57
```
  coffeescript_comment = coffeescript_line_comment | coffeescript_block_comment;
``` -/
def coffeescript_comment : Rx := .alts [coffeescript_line_comment, coffeescript_block_comment]

/-- src/parsers/coffeescript.rl:59-68
```
  coffeescript_sq_str =
    '\'' @enqueue @code (
      newline %{ entity = INTERNAL_NL; } %coffeescript_ccallback
      |
      ws
      |
      [^\r\n\f\t '\\] @code
      |
      '\\' nonnewline @code
    )* '\'' @commit @code;
``` -/
def coffeescript_sq_str : Rx := .seqs [.fin (.fin (.cls (Cls.chr 39)) .enqueue) .code, .star (.alts [.leave (.leave (Common.newline) (.setEnt .internalNl)) .cb, .cls (Common.ws), .fin (.cls (Cls.neg (Cls.ranges [(9, 10), (12, 13), (32, 32), (39, 39), (92, 92)]))) .code, .seqs [.cls (Cls.chr 92), .fin (.cls (Common.nonnewline)) .code]]), .fin (.fin (.cls (Cls.chr 39)) .commit) .code]

/-- src/parsers/coffeescript.rl:69-78
```
  coffeescript_dq_str =
    '"' @enqueue @code (
      newline %{ entity = INTERNAL_NL; } %coffeescript_ccallback
      |
      ws
      |
      [^\r\n\f\t "\\] @code
      |
      '\\' nonnewline @code
    )* '"' @commit @code;
``` -/
def coffeescript_dq_str : Rx := .seqs [.fin (.fin (.cls (Cls.chr 34)) .enqueue) .code, .star (.alts [.leave (.leave (Common.newline) (.setEnt .internalNl)) .cb, .cls (Common.ws), .fin (.cls (Cls.neg (Cls.ranges [(9, 10), (12, 13), (32, 32), (34, 34), (92, 92)]))) .code, .seqs [.cls (Cls.chr 92), .fin (.cls (Common.nonnewline)) .code]]), .fin (.fin (.cls (Cls.chr 34)) .commit) .code]

/-- src/parsers/coffeescript.rl:79-86
```
  coffeescript_sq_here_doc =
    '\'\'\'' @code (
      newline %{ entity = INTERNAL_NL; } %coffeescript_ccallback
      |
      ws
      |
      (nonnewline - ws) @code
    )* :>> '\'\'\'' @code;
``` -/
def coffeescript_sq_here_doc : Rx := .guard (.seqs [.fin (.lit [39, 39, 39]) .code, .star (.alts [.leave (.leave (Common.newline) (.setEnt .internalNl)) .cb, .cls (Common.ws), .fin (.cls (Cls.diff (Common.nonnewline) (Common.ws))) .code])]) (.fin (.lit [39, 39, 39]) .code)

/-- src/parsers/coffeescript.rl:87-94
```
  coffeescript_dq_here_doc =
    '"""' @code (
      newline %{ entity = INTERNAL_NL; } %coffeescript_ccallback
      |
      ws
      |
      (nonnewline - ws) @code
    )* :>> '"""' @code;
``` -/
def coffeescript_dq_here_doc : Rx := .guard (.seqs [.fin (.lit [34, 34, 34]) .code, .star (.alts [.leave (.leave (Common.newline) (.setEnt .internalNl)) .cb, .cls (Common.ws), .fin (.cls (Cls.diff (Common.nonnewline) (Common.ws))) .code])]) (.fin (.lit [34, 34, 34]) .code)

/-- src/parsers/coffeescript.rl:95-96
```
  coffeescript_string = (coffeescript_sq_str | coffeescript_dq_str |
    coffeescript_sq_here_doc | coffeescript_dq_here_doc) @code;
``` -/
def coffeescript_string : Rx := .fin (.alts [coffeescript_sq_str, coffeescript_dq_str, coffeescript_sq_here_doc, coffeescript_dq_here_doc]) .code

/-- Machine 1: src/parsers/coffeescript.rl:110-118.
```
  coffeescript_line := |*
    coffeescript_js_entry @coffeescript_ccallback
      @{ saw(JS_LANG); } => { fcall coffeescript_js_line; };
    spaces          ${ entity = COFFEESCRIPT_SPACE; } => coffeescript_ccallback;
    coffeescript_comment;
    coffeescript_string;
    newline         ${ entity = NEWLINE;      } => coffeescript_ccallback;
    ^space          ${ entity = COFFEESCRIPT_ANY;   } => coffeescript_ccallback;
  *|;
``` -/
def coffeescript_line : EScanner where
  pats := [
  (.fin (.fin (coffeescript_js_entry) .cb) (.emb (.saw 1)), .call 0),
  (.all (Common.spaces) (.setEnt (.own 0)), .cb 0),
  (coffeescript_comment, .none),
  (coffeescript_string, .none),
  (.all (Common.newline) (.setEnt .newline), .cb 0),
  (.all (.cls (Cls.neg (Common.space))) (.setEnt (.own 3)), .cb 0)]
  scanner := true

/-- src/parsers/coffeescript.rl:127
```
  coffeescript_line_comment_entity = ('#') nonnewline*;
``` -/
def coffeescript_line_comment_entity : Rx := .seqs [.cls (Cls.chr 35), .star (.cls (Common.nonnewline))]

/-- src/parsers/coffeescript.rl:128
```
  coffeescript_block_comment_entity = '###' any* :>> '###';
``` -/
def coffeescript_block_comment_entity : Rx := .guard (.seqs [.lit [35, 35, 35], .star (.cls (Cls.any))]) (.lit [35, 35, 35])

/-- src/parsers/coffeescript.rl:129-130
```
  coffeescript_comment_entity = coffeescript_line_comment_entity |
    coffeescript_block_comment_entity;
``` -/
def coffeescript_comment_entity : Rx := .alts [coffeescript_line_comment_entity, coffeescript_block_comment_entity]

/-- Machine 2: src/parsers/coffeescript.rl:132-137.
```
  coffeescript_entity := |*
    space+                ${ entity = COFFEESCRIPT_SPACE;   } => coffeescript_ecallback;
    coffeescript_comment_entity ${ entity = COFFEESCRIPT_COMMENT; } => coffeescript_ecallback;
    # TODO:
    ^space;
  *|;
``` -/
def coffeescript_entity : EScanner where
  pats := [
  (.all (.plus (.cls (Common.space))) (.setEnt (.own 0)), .ecb 0),
  (.all (coffeescript_comment_entity) (.setEnt (.own 1)), .ecb 0),
  (.cls (Cls.neg (Common.space)), .none)]
  scanner := true

/-- `parse_coffeescript`, src/parsers/coffeescript.rl:153-166; the callbacks are src/parsers/coffeescript.rl:32-46, src/parsers/javascript.rl:33-47. -/
def parser : EParser where
  name := "parse_coffeescript"
  langs := ["coffeescript", "javascript"]
  sws := [
    [((.own 0), .ls), ((.own 3), .code), (.internalNl, .internalNewline), (.newline, .newline)],
    [((.own 0), .ls), ((.own 7), .code), (.internalNl, .internalNewline), (.newline, .newline)]]
  machs := [coffeescript_js_line, coffeescript_line, coffeescript_entity]
  line := 1
  entity := 2

end Ohcount.Gram.Emb.Coffeescript

/-! ### metapost_with_tex.rl -/

namespace Ohcount.Gram.Emb.MetapostWithTex
open Ohcount.Ragel

/-- src/parsers/metapost_with_tex.rl:59
```
  mptex_tex_outry = 'etex' @check_blank_outry @code;
``` -/
def mptex_tex_outry : Rx := .fin (.fin (.lit [101, 116, 101, 120]) (.emb .outry)) .code

/-- src/parsers/tex.rl:47
```
  tex_comment = '%' @comment nonnewline*;
``` -/
def tex_comment : Rx := .seqs [.fin (.cls (Cls.chr 37)) .comment, .star (.cls (Common.nonnewline))]

/-- Machine 0: src/parsers/metapost_with_tex.rl:60-67.
```
  mptex_tex_line := |*
    mptex_tex_outry @{ p = ts; fret; };
    # unmodified Tex patterns
    spaces       ${ entity = TEX_SPACE; } => tex_ccallback;
    tex_comment;
    newline      ${ entity = NEWLINE;   } => tex_ccallback;
    ^space       ${ entity = TEX_ANY;   } => tex_ccallback;
  *|;
``` -/
def mptex_tex_line : EScanner where
  pats := [
  (.fin (mptex_tex_outry) (.emb .back), .none),
  (.all (Common.spaces) (.setEnt (.own 0)), .cb 1),
  (tex_comment, .none),
  (.all (Common.newline) (.setEnt .newline), .cb 1),
  (.all (.cls (Cls.neg (Common.space))) (.setEnt (.own 3)), .cb 1)]
  scanner := true

/-- src/parsers/metapost_with_tex.rl:58
```
  mptex_tex_entry = ('verbatimtex' | 'btex') @code;
``` -/
def mptex_tex_entry : Rx := .fin (.alts [.lit [118, 101, 114, 98, 97, 116, 105, 109, 116, 101, 120], .lit [98, 116, 101, 120]]) .code

/-- src/parsers/metapost_with_tex.rl:54
```
  mptex_comment = '%' @{ fhold; } @comment nonnewline*;
``` -/
def mptex_comment : Rx := .seqs [.fin (.fin (.cls (Cls.chr 37)) (.fhold 0)) .comment, .star (.cls (Common.nonnewline))]

/-- src/parsers/metapost_with_tex.rl:56
```
  mptex_string = '"' @code ([^\r\n\f"\\] | '\\' nonnewline)* '"';
``` -/
def mptex_string : Rx := .seqs [.fin (.cls (Cls.chr 34)) .code, .star (.alts [.cls (Cls.neg (Cls.ranges [(10, 10), (12, 13), (34, 34), (92, 92)])), .seqs [.cls (Cls.chr 92), .cls (Common.nonnewline)]]), .cls (Cls.chr 34)]

/-- Machine 1: src/parsers/metapost_with_tex.rl:69-78.
```
  mptex_line := |*
    mptex_tex_entry @{ entity = CHECK_BLANK_ENTRY; } @mptex_ccallback
      @{ saw(TEX_LANG); } => { fcall mptex_tex_line; };
    # standard Metapost patterns
    spaces            ${ entity = MPTEX_SPACE; } => mptex_ccallback;
    mptex_comment;
    mptex_string;
    newline           ${ entity = NEWLINE;        } => mptex_ccallback;
    ^space            ${ entity = MPTEX_ANY;   } => mptex_ccallback;
  *|;
``` -/
def mptex_line : EScanner where
  pats := [
  (.fin (.fin (.fin (mptex_tex_entry) (.setEnt .checkBlank)) .cb) (.emb (.saw 1)), .call 0),
  (.all (Common.spaces) (.setEnt (.own 0)), .cb 0),
  (mptex_comment, .none),
  (mptex_string, .none),
  (.all (Common.newline) (.setEnt .newline), .cb 0),
  (.all (.cls (Cls.neg (Common.space))) (.setEnt (.own 3)), .cb 0)]
  scanner := true

/-- src/parsers/metapost_with_tex.rl:87
```
  mptex_tex_outry_entity = 'etex';
``` -/
def mptex_tex_outry_entity : Rx := .lit [101, 116, 101, 120]

/-- src/parsers/tex.rl:62
```
  tex_comment_entity = '%' nonnewline*;
``` -/
def tex_comment_entity : Rx := .seqs [.cls (Cls.chr 37), .star (.cls (Common.nonnewline))]

/-- Machine 2: src/parsers/metapost_with_tex.rl:88-95.
```
  mptex_tex_entity := |*
    mptex_tex_outry_entity @{ fret; };
    # unmodified Tex patterns
    space+             ${ entity = TEX_SPACE;   } => tex_ecallback;
    tex_comment_entity ${ entity = TEX_COMMENT; } => tex_ecallback;
    # TODO:
    ^space;
  *|;
``` -/
def mptex_tex_entity : EScanner where
  pats := [
  (.fin (mptex_tex_outry_entity) (.emb .ret), .none),
  (.all (.plus (.cls (Common.space))) (.setEnt (.own 0)), .ecb 1),
  (.all (tex_comment_entity) (.setEnt (.own 1)), .ecb 1),
  (.cls (Cls.neg (Common.space)), .none)]
  scanner := true

/-- src/parsers/metapost_with_tex.rl:86
```
  mptex_tex_entry_entity = 'verbatimtex' | 'btex';
``` -/
def mptex_tex_entry_entity : Rx := .alts [.lit [118, 101, 114, 98, 97, 116, 105, 109, 116, 101, 120], .lit [98, 116, 101, 120]]

/-- src/parsers/metapost_with_tex.rl:97
```
  mptex_comment_entity = '%' nonnewline*;
``` -/
def mptex_comment_entity : Rx := .seqs [.cls (Cls.chr 37), .star (.cls (Common.nonnewline))]

/-- Machine 3: src/parsers/metapost_with_tex.rl:99-107.
```
  mptex_entity := |*
    # TODO: mptex_ecallback for mptex_*_{entry,outry}_entity
    mptex_tex_entry_entity => { fcall mptex_tex_entity; };
    # standard mptex patterns
    space+               ${ entity = MPTEX_SPACE;   } => mptex_ecallback;
    mptex_comment_entity ${ entity = MPTEX_COMMENT; } => mptex_ecallback;
    # TODO:
    ^space;
  *|;
``` -/
def mptex_entity : EScanner where
  pats := [
  (mptex_tex_entry_entity, .call 2),
  (.all (.plus (.cls (Common.space))) (.setEnt (.own 0)), .ecb 0),
  (.all (mptex_comment_entity) (.setEnt (.own 1)), .ecb 0),
  (.cls (Cls.neg (Common.space)), .none)]
  scanner := true

/-- `parse_mptex`, src/parsers/metapost_with_tex.rl:123-136; the callbacks are src/parsers/metapost_with_tex.rl:35-52, src/parsers/tex.rl:31-45. -/
def parser : EParser where
  name := "parse_mptex"
  langs := ["metapost", "tex"]
  sws := [
    [((.own 0), .ls), ((.own 3), .code), (.internalNl, .internalNewline), (.newline, .newline), (.checkBlank, .checkBlank)],
    [((.own 0), .ls), ((.own 3), .code), (.internalNl, .internalNewline), (.newline, .newline)]]
  machs := [mptex_tex_line, mptex_line, mptex_tex_entity, mptex_entity]
  line := 1
  entity := 3

end Ohcount.Gram.Emb.MetapostWithTex

