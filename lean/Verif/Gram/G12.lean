import Verif.Gram.Common

/-! Scanners transcribed from src/parsers/: xmlschema.rl, xslt.rl. Generated by tools/gen_grammars.py. -/

namespace Ohcount.Gram.Xmlschema
open Ohcount.Ragel

/-- src/parsers/xmlschema.rl:52-59
```
  xmlschema_comment =
    '<!--' @comment (
      newline %{ entity = INTERNAL_NL; } %xmlschema_ccallback
      |
      ws
      |
      (nonnewline - ws) @comment
    )* :>> '-->';
``` -/
def xmlschema_comment : Rx := .guard (.seqs [.fin (.lit [60, 33, 45, 45]) .comment, .star (.alts [.leave (.leave (Common.newline) (.setEnt .internalNl)) .cb, .cls (Common.ws), .fin (.cls (Cls.diff (Common.nonnewline) (Common.ws))) .comment])]) (.lit [45, 45, 62])

/-- src/parsers/xmlschema.rl:61
```
  xmlschema_sq_str = '\'' ([^\r\n\f'\\] | '\\' nonnewline)* '\'' @code;
``` -/
def xmlschema_sq_str : Rx := .seqs [.cls (Cls.chr 39), .star (.alts [.cls (Cls.neg (Cls.ranges [(10, 10), (12, 13), (39, 39), (92, 92)])), .seqs [.cls (Cls.chr 92), .cls (Common.nonnewline)]]), .fin (.cls (Cls.chr 39)) .code]

/-- src/parsers/xmlschema.rl:62
```
  xmlschema_dq_str = '"' ([^\r\n\f"\\] | '\\' nonnewline)* '"' @code;
``` -/
def xmlschema_dq_str : Rx := .seqs [.cls (Cls.chr 34), .star (.alts [.cls (Cls.neg (Cls.ranges [(10, 10), (12, 13), (34, 34), (92, 92)])), .seqs [.cls (Cls.chr 92), .cls (Common.nonnewline)]]), .fin (.cls (Cls.chr 34)) .code]

/-- src/parsers/xmlschema.rl:63-70
```
  xmlschema_cdata_str =
    '<![CDATA[' @code (
      newline %{ entity = INTERNAL_NL; } %xmlschema_ccallback
      |
      ws
      |
      (nonnewline - ws) @code
    )* :>> ']]>';
``` -/
def xmlschema_cdata_str : Rx := .guard (.seqs [.fin (.lit [60, 33, 91, 67, 68, 65, 84, 65, 91]) .code, .star (.alts [.leave (.leave (Common.newline) (.setEnt .internalNl)) .cb, .cls (Common.ws), .fin (.cls (Cls.diff (Common.nonnewline) (Common.ws))) .code])]) (.lit [93, 93, 62])

/-- src/parsers/xmlschema.rl:71
```
  xmlschema_string = xmlschema_sq_str | xmlschema_dq_str | xmlschema_cdata_str;
``` -/
def xmlschema_string : Rx := .alts [xmlschema_sq_str, xmlschema_dq_str, xmlschema_cdata_str]

/-- src/parsers/xmlschema.rl:73-79 with the cases of its callback (src/parsers/xmlschema.rl:33-50).
```
  xmlschema_line := |*
    spaces             ${ entity = XMLSCHEMA_SPACE; } => xmlschema_ccallback;
    xmlschema_comment;
    xmlschema_string;
    newline            ${ entity = NEWLINE;         } => xmlschema_ccallback;
    ^space             ${ entity = XMLSCHEMA_ANY;   } => xmlschema_ccallback;
  *|;
``` -/
def xmlschema_line : Scanner where
  pats := [
  (.all (Common.spaces) (.setEnt (.own 0)), .cb),
  (xmlschema_comment, .none),
  (xmlschema_string, .none),
  (.all (Common.newline) (.setEnt .newline), .cb),
  (.all (.cls (Cls.neg (Common.space))) (.setEnt (.own 5)), .cb)]
  sw := [((.own 0), .ls), ((.own 5), .code), (.internalNl, .internalNewline), (.newline, .newline)]

/-- src/parsers/xmlschema.rl:88
```
  xmlschema_comment_entity = '<!--' any* :>> '-->';
``` -/
def xmlschema_comment_entity : Rx := .guard (.seqs [.lit [60, 33, 45, 45], .star (.cls (Cls.any))]) (.lit [45, 45, 62])

/-- src/parsers/xmlschema.rl:90-95.
```
  xmlschema_entity := |*
    space+                   ${ entity = XMLSCHEMA_SPACE;   } => xmlschema_ecallback;
    xmlschema_comment_entity ${ entity = XMLSCHEMA_COMMENT; } => xmlschema_ecallback;
    # TODO:
    ^space;
  *|;
``` -/
def xmlschema_entity : Scanner where
  pats := [
  (.all (.plus (.cls (Common.space))) (.setEnt (.own 0)), .ecb),
  (.all (xmlschema_comment_entity) (.setEnt (.own 1)), .ecb),
  (.cls (Cls.neg (Common.space)), .none)]
  sw := []

end Ohcount.Gram.Xmlschema

namespace Ohcount.Gram.Xslt
open Ohcount.Ragel

/-- src/parsers/xslt.rl:52-59
```
  xslt_comment =
    '<!--' @comment (
      newline %{ entity = INTERNAL_NL; } %xslt_ccallback
      |
      ws
      |
      (nonnewline - ws) @comment
    )* :>> '-->';
``` -/
def xslt_comment : Rx := .guard (.seqs [.fin (.lit [60, 33, 45, 45]) .comment, .star (.alts [.leave (.leave (Common.newline) (.setEnt .internalNl)) .cb, .cls (Common.ws), .fin (.cls (Cls.diff (Common.nonnewline) (Common.ws))) .comment])]) (.lit [45, 45, 62])

/-- src/parsers/xslt.rl:61
```
  xslt_sq_str = '\'' ([^\r\n\f'\\] | '\\' nonnewline)* '\'' @code;
``` -/
def xslt_sq_str : Rx := .seqs [.cls (Cls.chr 39), .star (.alts [.cls (Cls.neg (Cls.ranges [(10, 10), (12, 13), (39, 39), (92, 92)])), .seqs [.cls (Cls.chr 92), .cls (Common.nonnewline)]]), .fin (.cls (Cls.chr 39)) .code]

/-- src/parsers/xslt.rl:62
```
  xslt_dq_str = '"' ([^\r\n\f"\\] | '\\' nonnewline)* '"' @code;
``` -/
def xslt_dq_str : Rx := .seqs [.cls (Cls.chr 34), .star (.alts [.cls (Cls.neg (Cls.ranges [(10, 10), (12, 13), (34, 34), (92, 92)])), .seqs [.cls (Cls.chr 92), .cls (Common.nonnewline)]]), .fin (.cls (Cls.chr 34)) .code]

/-- src/parsers/xslt.rl:63-70
```
  xslt_cdata_str =
    '<![CDATA[' @code (
      newline %{ entity = INTERNAL_NL; } %xslt_ccallback
      |
      ws
      |
      (nonnewline - ws) @code
    )* :>> ']]>';
``` -/
def xslt_cdata_str : Rx := .guard (.seqs [.fin (.lit [60, 33, 91, 67, 68, 65, 84, 65, 91]) .code, .star (.alts [.leave (.leave (Common.newline) (.setEnt .internalNl)) .cb, .cls (Common.ws), .fin (.cls (Cls.diff (Common.nonnewline) (Common.ws))) .code])]) (.lit [93, 93, 62])

/-- src/parsers/xslt.rl:71
```
  xslt_string = xslt_sq_str | xslt_dq_str | xslt_cdata_str;
``` -/
def xslt_string : Rx := .alts [xslt_sq_str, xslt_dq_str, xslt_cdata_str]

/-- src/parsers/xslt.rl:73-79 with the cases of its callback (src/parsers/xslt.rl:33-50).
```
  xslt_line := |*
    spaces        ${ entity = XSLT_SPACE; } => xslt_ccallback;
    xslt_comment;
    xslt_string;
    newline       ${ entity = NEWLINE;    } => xslt_ccallback;
    ^space        ${ entity = XSLT_ANY;   } => xslt_ccallback;
  *|;
``` -/
def xslt_line : Scanner where
  pats := [
  (.all (Common.spaces) (.setEnt (.own 0)), .cb),
  (xslt_comment, .none),
  (xslt_string, .none),
  (.all (Common.newline) (.setEnt .newline), .cb),
  (.all (.cls (Cls.neg (Common.space))) (.setEnt (.own 5)), .cb)]
  sw := [((.own 0), .ls), ((.own 5), .code), (.internalNl, .internalNewline), (.newline, .newline)]

/-- src/parsers/xslt.rl:87
```
  xslt_comment_entity = '<!--' any* :>> '-->';
``` -/
def xslt_comment_entity : Rx := .guard (.seqs [.lit [60, 33, 45, 45], .star (.cls (Cls.any))]) (.lit [45, 45, 62])

/-- src/parsers/xslt.rl:89-94.
```
  xslt_entity := |*
    space+              ${ entity = XSLT_SPACE;   } => xslt_ecallback;
    xslt_comment_entity ${ entity = XSLT_COMMENT; } => xslt_ecallback;
    # TODO:
    ^space;
  *|;
``` -/
def xslt_entity : Scanner where
  pats := [
  (.all (.plus (.cls (Common.space))) (.setEnt (.own 0)), .ecb),
  (.all (xslt_comment_entity) (.setEnt (.own 1)), .ecb),
  (.cls (Cls.neg (Common.space)), .none)]
  sw := []

end Ohcount.Gram.Xslt

