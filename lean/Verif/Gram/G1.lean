import Verif.Gram.Common

/-! Scanners transcribed from src/parsers/: actionscript.rl, ada.rl, ampl.rl, assembler.rl, augeas.rl, autoconf.rl, automake.rl, awk.rl, bat.rl. Generated by tools/gen_grammars.py. -/

namespace Ohcount.Gram.Actionscript
open Ohcount.Ragel

/-- src/parsers/actionscript.rl:47
```
  as_line_comment = '//' @comment nonnewline*;
``` -/
def as_line_comment : Rx := .seqs [.fin (.lit [47, 47]) .comment, .star (.cls (Common.nonnewline))]

/-- src/parsers/actionscript.rl:48-55
```
  as_block_comment =
    '/*' @comment (
      newline %{ entity = INTERNAL_NL; } %as_ccallback
      |
      ws
      |
      (nonnewline - ws) @comment
    )* :>> '*/';
``` -/
def as_block_comment : Rx := .guard (.seqs [.fin (.lit [47, 42]) .comment, .star (.alts [.leave (.leave (Common.newline) (.setEnt .internalNl)) .cb, .cls (Common.ws), .fin (.cls (Cls.diff (Common.nonnewline) (Common.ws))) .comment])]) (.lit [42, 47])

/-- src/parsers/actionscript.rl:56
```
  as_comment = as_line_comment | as_block_comment;
``` -/
def as_comment : Rx := .alts [as_line_comment, as_block_comment]

/-- src/parsers/actionscript.rl:58
```
  as_sq_str = '\'' @code ([^\r\n\f'\\] | '\\' nonnewline)* '\'';
``` -/
def as_sq_str : Rx := .seqs [.fin (.cls (Cls.chr 39)) .code, .star (.alts [.cls (Cls.neg (Cls.ranges [(10, 10), (12, 13), (39, 39), (92, 92)])), .seqs [.cls (Cls.chr 92), .cls (Common.nonnewline)]]), .cls (Cls.chr 39)]

/-- src/parsers/actionscript.rl:59
```
  as_dq_str = '"' @code ([^\r\n\f"\\] | '\\' nonnewline)* '"';
``` -/
def as_dq_str : Rx := .seqs [.fin (.cls (Cls.chr 34)) .code, .star (.alts [.cls (Cls.neg (Cls.ranges [(10, 10), (12, 13), (34, 34), (92, 92)])), .seqs [.cls (Cls.chr 92), .cls (Common.nonnewline)]]), .cls (Cls.chr 34)]

/-- src/parsers/actionscript.rl:60-66
```
  as_ml_str = '<![CDATA[' @code (
    newline %{ entity = INTERNAL_NL; } %as_ccallback
    |
    ws
    |
    (nonnewline - ws) @code
  )* :>> ']]>';
``` -/
def as_ml_str : Rx := .guard (.seqs [.fin (.lit [60, 33, 91, 67, 68, 65, 84, 65, 91]) .code, .star (.alts [.leave (.leave (Common.newline) (.setEnt .internalNl)) .cb, .cls (Common.ws), .fin (.cls (Cls.diff (Common.nonnewline) (Common.ws))) .code])]) (.lit [93, 93, 62])

/-- src/parsers/actionscript.rl:67
```
  as_string = as_sq_str | as_dq_str | as_ml_str;
``` -/
def as_string : Rx := .alts [as_sq_str, as_dq_str, as_ml_str]

/-- src/parsers/actionscript.rl:69-75 with the cases of its callback (src/parsers/actionscript.rl:31-45).
```
  as_line := |*
    spaces      ${ entity = AS_SPACE; } => as_ccallback;
    as_comment;
    as_string;
    newline     ${ entity = NEWLINE;  } => as_ccallback;
    ^space      ${ entity = AS_ANY;   } => as_ccallback;
  *|;
``` -/
def as_line : Scanner where
  pats := [
  (.all (Common.spaces) (.setEnt (.own 0)), .cb),
  (as_comment, .none),
  (as_string, .none),
  (.all (Common.newline) (.setEnt .newline), .cb),
  (.all (.cls (Cls.neg (Common.space))) (.setEnt (.own 3)), .cb)]
  sw := [((.own 0), .ls), ((.own 3), .code), (.internalNl, .internalNewline), (.newline, .newline)]

/-- src/parsers/actionscript.rl:83
```
  as_line_comment_entity = '//' nonnewline*;
``` -/
def as_line_comment_entity : Rx := .seqs [.lit [47, 47], .star (.cls (Common.nonnewline))]

/-- src/parsers/actionscript.rl:84
```
  as_block_comment_entity = '/*' any* :>> '*/';
``` -/
def as_block_comment_entity : Rx := .guard (.seqs [.lit [47, 42], .star (.cls (Cls.any))]) (.lit [42, 47])

/-- src/parsers/actionscript.rl:85
```
  as_comment_entity = as_line_comment_entity | as_block_comment_entity;
``` -/
def as_comment_entity : Rx := .alts [as_line_comment_entity, as_block_comment_entity]

/-- src/parsers/actionscript.rl:87-92.
```
  as_entity := |*
    space+            ${ entity = AS_SPACE;   } => as_ecallback;
    as_comment_entity ${ entity = AS_COMMENT; } => as_ecallback;
    # TODO:
    ^space;
  *|;
``` -/
def as_entity : Scanner where
  pats := [
  (.all (.plus (.cls (Common.space))) (.setEnt (.own 0)), .ecb),
  (.all (as_comment_entity) (.setEnt (.own 1)), .ecb),
  (.cls (Cls.neg (Common.space)), .none)]
  sw := []

end Ohcount.Gram.Actionscript

namespace Ohcount.Gram.Ada
open Ohcount.Ragel

/-- src/parsers/ada.rl:47
```
  ada_comment = '--' @comment nonnewline*;
``` -/
def ada_comment : Rx := .seqs [.fin (.lit [45, 45]) .comment, .star (.cls (Common.nonnewline))]

/-- src/parsers/ada.rl:49
```
  ada_string = '"' @code [^\r\n\f"]* '"';
``` -/
def ada_string : Rx := .seqs [.fin (.cls (Cls.chr 34)) .code, .star (.cls (Cls.neg (Cls.ranges [(10, 10), (12, 13), (34, 34)]))), .cls (Cls.chr 34)]

/-- src/parsers/ada.rl:51-57 with the cases of its callback (src/parsers/ada.rl:31-45).
```
  ada_line := |*
    spaces      ${ entity = ADA_SPACE; } => ada_ccallback;
    ada_comment;
    ada_string;
    newline     ${ entity = NEWLINE;   } => ada_ccallback;
    ^space      ${ entity = ADA_ANY;   } => ada_ccallback;
  *|;
``` -/
def ada_line : Scanner where
  pats := [
  (.all (Common.spaces) (.setEnt (.own 0)), .cb),
  (ada_comment, .none),
  (ada_string, .none),
  (.all (Common.newline) (.setEnt .newline), .cb),
  (.all (.cls (Cls.neg (Common.space))) (.setEnt (.own 3)), .cb)]
  sw := [((.own 0), .ls), ((.own 3), .code), (.internalNl, .internalNewline), (.newline, .newline)]

/-- src/parsers/ada.rl:65
```
  ada_comment_entity = '--' nonnewline*;
``` -/
def ada_comment_entity : Rx := .seqs [.lit [45, 45], .star (.cls (Common.nonnewline))]

/-- src/parsers/ada.rl:67-72.
```
  ada_entity := |*
    space+             ${ entity = ADA_SPACE;   } => ada_ecallback;
    ada_comment_entity ${ entity = ADA_COMMENT; } => ada_ecallback;
    # TODO:
    ^space;
  *|;
``` -/
def ada_entity : Scanner where
  pats := [
  (.all (.plus (.cls (Common.space))) (.setEnt (.own 0)), .ecb),
  (.all (ada_comment_entity) (.setEnt (.own 1)), .ecb),
  (.cls (Cls.neg (Common.space)), .none)]
  sw := []

end Ohcount.Gram.Ada

namespace Ohcount.Gram.Ampl
open Ohcount.Ragel

/-- src/parsers/ampl.rl:47
```
  ampl_line_comment = '#' @comment nonnewline*;
``` -/
def ampl_line_comment : Rx := .seqs [.fin (.cls (Cls.chr 35)) .comment, .star (.cls (Common.nonnewline))]

/-- src/parsers/ampl.rl:48-55
```
  ampl_block_comment =
    '/*' @comment (
      newline %{ entity = INTERNAL_NL; } %ampl_ccallback
      |
      ws
      |
      (nonnewline - ws) @comment
    )* :>> '*/';
``` -/
def ampl_block_comment : Rx := .guard (.seqs [.fin (.lit [47, 42]) .comment, .star (.alts [.leave (.leave (Common.newline) (.setEnt .internalNl)) .cb, .cls (Common.ws), .fin (.cls (Cls.diff (Common.nonnewline) (Common.ws))) .comment])]) (.lit [42, 47])

/-- src/parsers/ampl.rl:56
```
  ampl_comment = ampl_line_comment | ampl_block_comment;
``` -/
def ampl_comment : Rx := .alts [ampl_line_comment, ampl_block_comment]

/-- src/parsers/ampl.rl:58-63 with the cases of its callback (src/parsers/ampl.rl:31-45).
```
  ampl_line := |*
    spaces       ${ entity = AMPL_SPACE; } => ampl_ccallback;
    ampl_comment;
    newline      ${ entity = NEWLINE;    } => ampl_ccallback;
    ^space       ${ entity = AMPL_ANY;   } => ampl_ccallback;
  *|;
``` -/
def ampl_line : Scanner where
  pats := [
  (.all (Common.spaces) (.setEnt (.own 0)), .cb),
  (ampl_comment, .none),
  (.all (Common.newline) (.setEnt .newline), .cb),
  (.all (.cls (Cls.neg (Common.space))) (.setEnt (.own 2)), .cb)]
  sw := [((.own 0), .ls), ((.own 2), .code), (.internalNl, .internalNewline), (.newline, .newline)]

/-- src/parsers/ampl.rl:71
```
  ampl_line_comment_entity = '#' nonnewline*;
``` -/
def ampl_line_comment_entity : Rx := .seqs [.cls (Cls.chr 35), .star (.cls (Common.nonnewline))]

/-- src/parsers/ampl.rl:72
```
  ampl_block_comment_entity = '/*' any* :>> '*/';
``` -/
def ampl_block_comment_entity : Rx := .guard (.seqs [.lit [47, 42], .star (.cls (Cls.any))]) (.lit [42, 47])

/-- src/parsers/ampl.rl:73-74
```
  ampl_comment_entity =
    ampl_line_comment_entity | ampl_block_comment_entity;
``` -/
def ampl_comment_entity : Rx := .alts [ampl_line_comment_entity, ampl_block_comment_entity]

/-- src/parsers/ampl.rl:76-80.
```
  ampl_entity := |*
    space+              ${ entity = AMPL_SPACE;   } => ampl_ecallback;
    ampl_comment_entity ${ entity = AMPL_COMMENT; } => ampl_ecallback;
    ^space;
  *|;
``` -/
def ampl_entity : Scanner where
  pats := [
  (.all (.plus (.cls (Common.space))) (.setEnt (.own 0)), .ecb),
  (.all (ampl_comment_entity) (.setEnt (.own 1)), .ecb),
  (.cls (Cls.neg (Common.space)), .none)]
  sw := []

end Ohcount.Gram.Ampl

namespace Ohcount.Gram.Assembler
open Ohcount.Ragel

/-- src/parsers/assembler.rl:49
```
  asm_line_comment = ('//' | ';' | '!') @comment nonnewline*;
``` -/
def asm_line_comment : Rx := .seqs [.fin (.alts [.lit [47, 47], .cls (Cls.chr 59), .cls (Cls.chr 33)]) .comment, .star (.cls (Common.nonnewline))]

/-- src/parsers/assembler.rl:50-57
```
  asm_block_comment =
    '/*' @comment (
      newline %{ entity = INTERNAL_NL; } %asm_ccallback
      |
      ws
      |
      (nonnewline - ws) @comment
    )* :>> '*/';
``` -/
def asm_block_comment : Rx := .guard (.seqs [.fin (.lit [47, 42]) .comment, .star (.alts [.leave (.leave (Common.newline) (.setEnt .internalNl)) .cb, .cls (Common.ws), .fin (.cls (Cls.diff (Common.nonnewline) (Common.ws))) .comment])]) (.lit [42, 47])

/-- src/parsers/assembler.rl:58
```
  asm_comment = asm_line_comment | asm_block_comment;
``` -/
def asm_comment : Rx := .alts [asm_line_comment, asm_block_comment]

/-- src/parsers/assembler.rl:60
```
  asm_string = '"' @code ([^\r\n\f"\\] | '\\' nonnewline)* '"';
``` -/
def asm_string : Rx := .seqs [.fin (.cls (Cls.chr 34)) .code, .star (.alts [.cls (Cls.neg (Cls.ranges [(10, 10), (12, 13), (34, 34), (92, 92)])), .seqs [.cls (Cls.chr 92), .cls (Common.nonnewline)]]), .cls (Cls.chr 34)]

/-- src/parsers/assembler.rl:62-68 with the cases of its callback (src/parsers/assembler.rl:33-47).
```
  asm_line := |*
    spaces       ${ entity = ASM_SPACE; } => asm_ccallback;
    asm_comment;
    asm_string;
    newline      ${ entity = NEWLINE;   } => asm_ccallback;
    ^space       ${ entity = ASM_ANY;   } => asm_ccallback;
  *|;
``` -/
def asm_line : Scanner where
  pats := [
  (.all (Common.spaces) (.setEnt (.own 0)), .cb),
  (asm_comment, .none),
  (asm_string, .none),
  (.all (Common.newline) (.setEnt .newline), .cb),
  (.all (.cls (Cls.neg (Common.space))) (.setEnt (.own 7)), .cb)]
  sw := [((.own 0), .ls), ((.own 7), .code), (.internalNl, .internalNewline), (.newline, .newline)]

/-- src/parsers/assembler.rl:76
```
  asm_line_comment_entity = ('//' | ';' | '!') nonnewline*;
``` -/
def asm_line_comment_entity : Rx := .seqs [.alts [.lit [47, 47], .cls (Cls.chr 59), .cls (Cls.chr 33)], .star (.cls (Common.nonnewline))]

/-- src/parsers/assembler.rl:77
```
  asm_block_comment_entity = '/*' any* :>> '*/';
``` -/
def asm_block_comment_entity : Rx := .guard (.seqs [.lit [47, 42], .star (.cls (Cls.any))]) (.lit [42, 47])

/-- src/parsers/assembler.rl:78
```
  asm_comment_entity = asm_line_comment_entity | asm_block_comment_entity;
``` -/
def asm_comment_entity : Rx := .alts [asm_line_comment_entity, asm_block_comment_entity]

/-- src/parsers/assembler.rl:80-85.
```
  asm_entity := |*
    space+             ${ entity = ASM_SPACE;   } => asm_ecallback;
    asm_comment_entity ${ entity = ASM_COMMENT; } => asm_ecallback;
    # TODO:
    ^space;
  *|;
``` -/
def asm_entity : Scanner where
  pats := [
  (.all (.plus (.cls (Common.space))) (.setEnt (.own 0)), .ecb),
  (.all (asm_comment_entity) (.setEnt (.own 1)), .ecb),
  (.cls (Cls.neg (Common.space)), .none)]
  sw := []

end Ohcount.Gram.Assembler

namespace Ohcount.Gram.Augeas
open Ohcount.Ragel

/-- src/parsers/augeas.rl:50-61
```
  augeas_nested_block_comment =
    '(*' >augeas_comment_nc_res @comment (
      newline %{ entity = INTERNAL_NL; } %augeas_ccallback
      |
      ws
      |
      '(*' @augeas_comment_nc_inc @comment
      |
      '*)' @augeas_comment_nc_dec @comment
      |
      (nonnewline - ws) @comment
    )* :>> ('*)' when { nest_count == 0 }) @comment;
``` -/
def augeas_nested_block_comment : Rx := .guard (.seqs [.fin (.ent (.lit [40, 42]) .nestRes) .comment, .star (.alts [.leave (.leave (Common.newline) (.setEnt .internalNl)) .cb, .cls (Common.ws), .fin (.fin (.lit [40, 42]) .nestInc) .comment, .fin (.fin (.lit [42, 41]) .nestDec) .comment, .fin (.cls (Cls.diff (Common.nonnewline) (Common.ws))) .comment])]) (.fin (.cond (.lit [42, 41]) .nestZero) .comment)

/-- src/parsers/augeas.rl:63
```
  augeas_comment = augeas_nested_block_comment;
``` -/
def augeas_comment : Rx := augeas_nested_block_comment

/-- src/parsers/augeas.rl:64
```
  augeas_string = '"' @code ([^\r\n\f"\\] | '\\' nonnewline)* '"';
``` -/
def augeas_string : Rx := .seqs [.fin (.cls (Cls.chr 34)) .code, .star (.alts [.cls (Cls.neg (Cls.ranges [(10, 10), (12, 13), (34, 34), (92, 92)])), .seqs [.cls (Cls.chr 92), .cls (Common.nonnewline)]]), .cls (Cls.chr 34)]

/-- src/parsers/augeas.rl:67-73 with the cases of its callback (src/parsers/augeas.rl:30-44).
```
  augeas_line := |*
    spaces          ${ entity = AUGEAS_SPACE; } => augeas_ccallback;
    augeas_comment;
    augeas_string;
    newline         ${ entity = NEWLINE;      } => augeas_ccallback;
    ^space          ${ entity = AUGEAS_ANY;   } => augeas_ccallback;
  *|;
``` -/
def augeas_line : Scanner where
  pats := [
  (.all (Common.spaces) (.setEnt (.own 0)), .cb),
  (augeas_comment, .none),
  (augeas_string, .none),
  (.all (Common.newline) (.setEnt .newline), .cb),
  (.all (.cls (Cls.neg (Common.space))) (.setEnt (.own 3)), .cb)]
  sw := [((.own 0), .ls), ((.own 3), .code), (.internalNl, .internalNewline), (.newline, .newline)]

/-- src/parsers/augeas.rl:81-87
```
  augeas_comment_entity = '(*' >augeas_comment_nc_res (
    '(*' @augeas_comment_nc_inc
    |
    '*)' @augeas_comment_nc_dec
    |
    any
  )* :>> ('*)' when { nest_count == 0 });
``` -/
def augeas_comment_entity : Rx := .guard (.seqs [.ent (.lit [40, 42]) .nestRes, .star (.alts [.fin (.lit [40, 42]) .nestInc, .fin (.lit [42, 41]) .nestDec, .cls (Cls.any)])]) (.cond (.lit [42, 41]) .nestZero)

/-- src/parsers/augeas.rl:89-94.
```
  augeas_entity := |*
    space+               ${ entity = AUGEAS_SPACE;   } => augeas_ecallback;
    augeas_comment_entity ${ entity = AUGEAS_COMMENT; } => augeas_ecallback;
    # TODO:
    ^space;
  *|;
``` -/
def augeas_entity : Scanner where
  pats := [
  (.all (.plus (.cls (Common.space))) (.setEnt (.own 0)), .ecb),
  (.all (augeas_comment_entity) (.setEnt (.own 1)), .ecb),
  (.cls (Cls.neg (Common.space)), .none)]
  sw := []

end Ohcount.Gram.Augeas

namespace Ohcount.Gram.Autoconf
open Ohcount.Ragel

/-- src/parsers/autoconf.rl:51
```
  ac_comment = 'dnl' @comment (ws+ nonnewline+)?;
``` -/
def ac_comment : Rx := .seqs [.fin (.lit [100, 110, 108]) .comment, .opt (.seqs [.plus (.cls (Common.ws)), .plus (.cls (Common.nonnewline))])]

/-- src/parsers/autoconf.rl:53-64
```
  ac_string =
    '[' >ac_str_nc_res @code (
      newline %{ entity = INTERNAL_NL; } %ac_ccallback
      |
      ws
      |
      '[' @ac_str_nc_inc @code
      |
      ']' @ac_str_nc_dec @code
      |
      (nonnewline - ws - [\[\]]) @code
    )* :>> (']' when { nest_count == 0 });
``` -/
def ac_string : Rx := .guard (.seqs [.fin (.ent (.cls (Cls.chr 91)) .nestRes) .code, .star (.alts [.leave (.leave (Common.newline) (.setEnt .internalNl)) .cb, .cls (Common.ws), .fin (.fin (.cls (Cls.chr 91)) .nestInc) .code, .fin (.fin (.cls (Cls.chr 93)) .nestDec) .code, .fin (.cls (Cls.diff (Cls.diff (Common.nonnewline) (Common.ws)) (Cls.chars [91, 93]))) .code])]) (.cond (.cls (Cls.chr 93)) .nestZero)

/-- src/parsers/autoconf.rl:66-72 with the cases of its callback (src/parsers/autoconf.rl:31-45).
```
  ac_line := |*
    spaces      ${ entity = AC_SPACE; } => ac_ccallback;
    ac_comment;
    ac_string;
    newline     ${ entity = NEWLINE;  } => ac_ccallback;
    ^space      ${ entity = AC_ANY;   } => ac_ccallback;
  *|;
``` -/
def ac_line : Scanner where
  pats := [
  (.all (Common.spaces) (.setEnt (.own 0)), .cb),
  (ac_comment, .none),
  (ac_string, .none),
  (.all (Common.newline) (.setEnt .newline), .cb),
  (.all (.cls (Cls.neg (Common.space))) (.setEnt (.own 3)), .cb)]
  sw := [((.own 0), .ls), ((.own 3), .code), (.internalNl, .internalNewline), (.newline, .newline)]

/-- src/parsers/autoconf.rl:80
```
  ac_comment_entity = 'dnl' ws+ nonnewline*;
``` -/
def ac_comment_entity : Rx := .seqs [.lit [100, 110, 108], .plus (.cls (Common.ws)), .star (.cls (Common.nonnewline))]

/-- src/parsers/autoconf.rl:82-87.
```
  ac_entity := |*
    space+            ${ entity = AC_SPACE;   } => ac_ecallback;
    ac_comment_entity ${ entity = AC_COMMENT; } => ac_ecallback;
    # TODO:
    ^space;
  *|;
``` -/
def ac_entity : Scanner where
  pats := [
  (.all (.plus (.cls (Common.space))) (.setEnt (.own 0)), .ecb),
  (.all (ac_comment_entity) (.setEnt (.own 1)), .ecb),
  (.cls (Cls.neg (Common.space)), .none)]
  sw := []

end Ohcount.Gram.Autoconf

namespace Ohcount.Gram.Automake
open Ohcount.Ragel

/-- src/parsers/automake.rl:47
```
  am_comment = '#' @comment nonnewline*;
``` -/
def am_comment : Rx := .seqs [.fin (.cls (Cls.chr 35)) .comment, .star (.cls (Common.nonnewline))]

/-- src/parsers/automake.rl:49
```
  am_sq_str = '\'' @code ([^\r\n\f'\\] | '\\' nonnewline)* '\'';
``` -/
def am_sq_str : Rx := .seqs [.fin (.cls (Cls.chr 39)) .code, .star (.alts [.cls (Cls.neg (Cls.ranges [(10, 10), (12, 13), (39, 39), (92, 92)])), .seqs [.cls (Cls.chr 92), .cls (Common.nonnewline)]]), .cls (Cls.chr 39)]

/-- src/parsers/automake.rl:50
```
  am_dq_str = '"' @code ([^\r\n\f"\\] | '\\' nonnewline)* '"';
``` -/
def am_dq_str : Rx := .seqs [.fin (.cls (Cls.chr 34)) .code, .star (.alts [.cls (Cls.neg (Cls.ranges [(10, 10), (12, 13), (34, 34), (92, 92)])), .seqs [.cls (Cls.chr 92), .cls (Common.nonnewline)]]), .cls (Cls.chr 34)]

/-- src/parsers/automake.rl:51
```
  am_string = am_sq_str | am_dq_str;
``` -/
def am_string : Rx := .alts [am_sq_str, am_dq_str]

/-- src/parsers/automake.rl:53-59 with the cases of its callback (src/parsers/automake.rl:31-45).
```
  am_line := |*
    spaces      ${ entity = AM_SPACE; } => am_ccallback;
    am_comment;
    am_string;
    newline     ${ entity = NEWLINE;  } => am_ccallback;
    ^space      ${ entity = AM_ANY;   } => am_ccallback;
  *|;
``` -/
def am_line : Scanner where
  pats := [
  (.all (Common.spaces) (.setEnt (.own 0)), .cb),
  (am_comment, .none),
  (am_string, .none),
  (.all (Common.newline) (.setEnt .newline), .cb),
  (.all (.cls (Cls.neg (Common.space))) (.setEnt (.own 3)), .cb)]
  sw := [((.own 0), .ls), ((.own 3), .code), (.internalNl, .internalNewline), (.newline, .newline)]

/-- src/parsers/automake.rl:67
```
  am_comment_entity = '#' nonnewline*;
``` -/
def am_comment_entity : Rx := .seqs [.cls (Cls.chr 35), .star (.cls (Common.nonnewline))]

/-- src/parsers/automake.rl:69-74.
```
  am_entity := |*
    space+            ${ entity = AM_SPACE;   } => am_ecallback;
    am_comment_entity ${ entity = AM_COMMENT; } => am_ecallback;
    # TODO:
    ^space;
  *|;
``` -/
def am_entity : Scanner where
  pats := [
  (.all (.plus (.cls (Common.space))) (.setEnt (.own 0)), .ecb),
  (.all (am_comment_entity) (.setEnt (.own 1)), .ecb),
  (.cls (Cls.neg (Common.space)), .none)]
  sw := []

end Ohcount.Gram.Automake

namespace Ohcount.Gram.Awk
open Ohcount.Ragel

/-- src/parsers/awk.rl:47
```
  awk_comment = '#' @comment nonnewline*;
``` -/
def awk_comment : Rx := .seqs [.fin (.cls (Cls.chr 35)) .comment, .star (.cls (Common.nonnewline))]

/-- src/parsers/awk.rl:49
```
  awk_dq_str = '"' @code ([^\r\n\f"\\] | '\\' nonnewline)* '"';
``` -/
def awk_dq_str : Rx := .seqs [.fin (.cls (Cls.chr 34)) .code, .star (.alts [.cls (Cls.neg (Cls.ranges [(10, 10), (12, 13), (34, 34), (92, 92)])), .seqs [.cls (Cls.chr 92), .cls (Common.nonnewline)]]), .cls (Cls.chr 34)]

/-- src/parsers/awk.rl:50
```
  awk_regex = '/' @code ([^\r\n\f/\\] | '\\' nonnewline)* '/';
``` -/
def awk_regex : Rx := .seqs [.fin (.cls (Cls.chr 47)) .code, .star (.alts [.cls (Cls.neg (Cls.ranges [(10, 10), (12, 13), (47, 47), (92, 92)])), .seqs [.cls (Cls.chr 92), .cls (Common.nonnewline)]]), .cls (Cls.chr 47)]

/-- src/parsers/awk.rl:51
```
  awk_string = awk_dq_str | awk_regex;
``` -/
def awk_string : Rx := .alts [awk_dq_str, awk_regex]

/-- src/parsers/awk.rl:53-59 with the cases of its callback (src/parsers/awk.rl:31-45).
```
  awk_line := |*
    spaces       ${ entity = AWK_SPACE; } => awk_ccallback;
    awk_comment;
    awk_string;
    newline      ${ entity = NEWLINE;   } => awk_ccallback;
    ^space       ${ entity = AWK_ANY;   } => awk_ccallback;
  *|;
``` -/
def awk_line : Scanner where
  pats := [
  (.all (Common.spaces) (.setEnt (.own 0)), .cb),
  (awk_comment, .none),
  (awk_string, .none),
  (.all (Common.newline) (.setEnt .newline), .cb),
  (.all (.cls (Cls.neg (Common.space))) (.setEnt (.own 3)), .cb)]
  sw := [((.own 0), .ls), ((.own 3), .code), (.internalNl, .internalNewline), (.newline, .newline)]

/-- src/parsers/awk.rl:67
```
  awk_comment_entity = '#' nonnewline*;
``` -/
def awk_comment_entity : Rx := .seqs [.cls (Cls.chr 35), .star (.cls (Common.nonnewline))]

/-- src/parsers/awk.rl:69-74.
```
  awk_entity := |*
    space+             ${ entity = AWK_SPACE;   } => awk_ecallback;
    awk_comment_entity ${ entity = AWK_COMMENT; } => awk_ecallback;
    # TODO:
    ^space;
  *|;
``` -/
def awk_entity : Scanner where
  pats := [
  (.all (.plus (.cls (Common.space))) (.setEnt (.own 0)), .ecb),
  (.all (awk_comment_entity) (.setEnt (.own 1)), .ecb),
  (.cls (Cls.neg (Common.space)), .none)]
  sw := []

end Ohcount.Gram.Awk

namespace Ohcount.Gram.Bat
open Ohcount.Ragel

/-- src/parsers/bat.rl:47
```
  bat_comment = ( /rem/i | /@rem/i | '::' ) @comment nonnewline*;
``` -/
def bat_comment : Rx := .seqs [.fin (.alts [.seqs [.cls (Cls.chars [82, 114]), .cls (Cls.chars [69, 101]), .cls (Cls.chars [77, 109])], .seqs [.cls (Cls.chr 64), .cls (Cls.chars [82, 114]), .cls (Cls.chars [69, 101]), .cls (Cls.chars [77, 109])], .lit [58, 58]]) .comment, .star (.cls (Common.nonnewline))]

/-- src/parsers/bat.rl:49-54 with the cases of its callback (src/parsers/bat.rl:31-45).
```
  bat_line := |*
    spaces       ${ entity = BAT_SPACE; } => bat_ccallback;
    bat_comment;
    newline      ${ entity = NEWLINE;   } => bat_ccallback;
    ^space       ${ entity = BAT_ANY;   } => bat_ccallback;
  *|;
``` -/
def bat_line : Scanner where
  pats := [
  (.all (Common.spaces) (.setEnt (.own 0)), .cb),
  (bat_comment, .none),
  (.all (Common.newline) (.setEnt .newline), .cb),
  (.all (.cls (Cls.neg (Common.space))) (.setEnt (.own 3)), .cb)]
  sw := [((.own 0), .ls), ((.own 3), .code), (.internalNl, .internalNewline), (.newline, .newline)]

/-- src/parsers/bat.rl:62
```
  bat_comment_entity = ( /rem/i | /@rem/i | '::' ) nonnewline*;
``` -/
def bat_comment_entity : Rx := .seqs [.alts [.seqs [.cls (Cls.chars [82, 114]), .cls (Cls.chars [69, 101]), .cls (Cls.chars [77, 109])], .seqs [.cls (Cls.chr 64), .cls (Cls.chars [82, 114]), .cls (Cls.chars [69, 101]), .cls (Cls.chars [77, 109])], .lit [58, 58]], .star (.cls (Common.nonnewline))]

/-- src/parsers/bat.rl:64-69.
```
  bat_entity := |*
    space+             ${ entity = BAT_SPACE;   } => bat_ecallback;
    bat_comment_entity ${ entity = BAT_COMMENT; } => bat_ecallback;
    # TODO:
    ^space;
  *|;
``` -/
def bat_entity : Scanner where
  pats := [
  (.all (.plus (.cls (Common.space))) (.setEnt (.own 0)), .ecb),
  (.all (bat_comment_entity) (.setEnt (.own 1)), .ecb),
  (.cls (Cls.neg (Common.space)), .none)]
  sw := []

end Ohcount.Gram.Bat

