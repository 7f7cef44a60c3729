import Verif.Gram.Common

/-! Scanners transcribed from src/parsers/: scala.rl, scilab.rl, shell.rl, smalltalk.rl, sql.rl, stratego.rl, structured_basic.rl, swift.rl, tcl.rl. Generated by tools/gen_grammars.py. -/

namespace Ohcount.Gram.Scala
open Ohcount.Ragel

/-- src/parsers/scala.rl:47
```
  scala_line_comment = '//' @comment nonnewline*;
``` -/
def scala_line_comment : Rx := .seqs [.fin (.lit [47, 47]) .comment, .star (.cls (Common.nonnewline))]

/-- src/parsers/scala.rl:48-55
```
  scala_block_comment =
    '/*' @comment (
      newline %{ entity = INTERNAL_NL; } %scala_ccallback
      |
      ws
      |
      (nonnewline - ws) @comment
    )* :>> '*/';
``` -/
def scala_block_comment : Rx := .guard (.seqs [.fin (.lit [47, 42]) .comment, .star (.alts [.leave (.leave (Common.newline) (.setEnt .internalNl)) .cb, .cls (Common.ws), .fin (.cls (Cls.diff (Common.nonnewline) (Common.ws))) .comment])]) (.lit [42, 47])

/-- src/parsers/scala.rl:56
```
  scala_comment = scala_line_comment | scala_block_comment;
``` -/
def scala_comment : Rx := .alts [scala_line_comment, scala_block_comment]

/-- src/parsers/scala.rl:58
```
  scala_sq_str = '\'' @code ([^\r\n\f'\\] | '\\' nonnewline)* '\'';
``` -/
def scala_sq_str : Rx := .seqs [.fin (.cls (Cls.chr 39)) .code, .star (.alts [.cls (Cls.neg (Cls.ranges [(10, 10), (12, 13), (39, 39), (92, 92)])), .seqs [.cls (Cls.chr 92), .cls (Common.nonnewline)]]), .cls (Cls.chr 39)]

/-- src/parsers/scala.rl:59
```
  scala_dq_str = '"' @code ([^\r\n\f"\\] | '\\' nonnewline)* '"';
``` -/
def scala_dq_str : Rx := .seqs [.fin (.cls (Cls.chr 34)) .code, .star (.alts [.cls (Cls.neg (Cls.ranges [(10, 10), (12, 13), (34, 34), (92, 92)])), .seqs [.cls (Cls.chr 92), .cls (Common.nonnewline)]]), .cls (Cls.chr 34)]

/-- src/parsers/scala.rl:60
```
  scala_string = scala_sq_str | scala_dq_str;
``` -/
def scala_string : Rx := .alts [scala_sq_str, scala_dq_str]

/-- src/parsers/scala.rl:62-68 with the cases of its callback (src/parsers/scala.rl:31-45).
```
  scala_line := |*
    spaces         ${ entity = SCALA_SPACE; } => scala_ccallback;
    scala_comment;
    scala_string;
    newline        ${ entity = NEWLINE;     } => scala_ccallback;
    ^space         ${ entity = SCALA_ANY;   } => scala_ccallback;
  *|;
``` -/
def scala_line : Scanner where
  pats := [
  (.all (Common.spaces) (.setEnt (.own 0)), .cb),
  (scala_comment, .none),
  (scala_string, .none),
  (.all (Common.newline) (.setEnt .newline), .cb),
  (.all (.cls (Cls.neg (Common.space))) (.setEnt (.own 3)), .cb)]
  sw := [((.own 0), .ls), ((.own 3), .code), (.internalNl, .internalNewline), (.newline, .newline)]

/-- src/parsers/scala.rl:76
```
  scala_line_comment_entity = '//' nonnewline*;
``` -/
def scala_line_comment_entity : Rx := .seqs [.lit [47, 47], .star (.cls (Common.nonnewline))]

/-- src/parsers/scala.rl:77
```
  scala_block_comment_entity = '/*' any* :>> '*/';
``` -/
def scala_block_comment_entity : Rx := .guard (.seqs [.lit [47, 42], .star (.cls (Cls.any))]) (.lit [42, 47])

/-- src/parsers/scala.rl:78
```
  scala_comment_entity = scala_line_comment_entity | scala_block_comment_entity;
``` -/
def scala_comment_entity : Rx := .alts [scala_line_comment_entity, scala_block_comment_entity]

/-- src/parsers/scala.rl:80-85.
```
  scala_entity := |*
    space+               ${ entity = SCALA_SPACE;   } => scala_ecallback;
    scala_comment_entity ${ entity = SCALA_COMMENT; } => scala_ecallback;
    # TODO:
    ^space;
  *|;
``` -/
def scala_entity : Scanner where
  pats := [
  (.all (.plus (.cls (Common.space))) (.setEnt (.own 0)), .ecb),
  (.all (scala_comment_entity) (.setEnt (.own 1)), .ecb),
  (.cls (Cls.neg (Common.space)), .none)]
  sw := []

end Ohcount.Gram.Scala

namespace Ohcount.Gram.Scilab
open Ohcount.Ragel

/-- src/parsers/scilab.rl:47
```
  scilab_comment = ('//') @comment nonnewline*;
``` -/
def scilab_comment : Rx := .seqs [.fin (.lit [47, 47]) .comment, .star (.cls (Common.nonnewline))]

/-- src/parsers/scilab.rl:51
```
  scilab_sq_str = '\'' @code ([^\r\n\f'\\] | '\\' nonnewline)* '\'';
``` -/
def scilab_sq_str : Rx := .seqs [.fin (.cls (Cls.chr 39)) .code, .star (.alts [.cls (Cls.neg (Cls.ranges [(10, 10), (12, 13), (39, 39), (92, 92)])), .seqs [.cls (Cls.chr 92), .cls (Common.nonnewline)]]), .cls (Cls.chr 39)]

/-- src/parsers/scilab.rl:52
```
  scilab_dq_str = '"' @code ([^\r\n\f"\\] | '\\' nonnewline)* '"';
``` -/
def scilab_dq_str : Rx := .seqs [.fin (.cls (Cls.chr 34)) .code, .star (.alts [.cls (Cls.neg (Cls.ranges [(10, 10), (12, 13), (34, 34), (92, 92)])), .seqs [.cls (Cls.chr 92), .cls (Common.nonnewline)]]), .cls (Cls.chr 34)]

/-- src/parsers/scilab.rl:53
```
  scilab_string = scilab_sq_str | scilab_dq_str;
``` -/
def scilab_string : Rx := .alts [scilab_sq_str, scilab_dq_str]

/-- src/parsers/scilab.rl:55-61 with the cases of its callback (src/parsers/scilab.rl:31-45).
```
  scilab_line := |*
    spaces          ${ entity = SCILAB_SPACE; } => scilab_ccallback;
    scilab_comment;
    scilab_string;
    newline         ${ entity = NEWLINE;      } => scilab_ccallback;
    ^space          ${ entity = SCILAB_ANY;   } => scilab_ccallback;
  *|;
``` -/
def scilab_line : Scanner where
  pats := [
  (.all (Common.spaces) (.setEnt (.own 0)), .cb),
  (scilab_comment, .none),
  (scilab_string, .none),
  (.all (Common.newline) (.setEnt .newline), .cb),
  (.all (.cls (Cls.neg (Common.space))) (.setEnt (.own 3)), .cb)]
  sw := [((.own 0), .ls), ((.own 3), .code), (.internalNl, .internalNewline), (.newline, .newline)]

/-- src/parsers/scilab.rl:70
```
  scilab_comment_entity = ('//') @comment nonnewline*;
``` -/
def scilab_comment_entity : Rx := .seqs [.fin (.lit [47, 47]) .comment, .star (.cls (Common.nonnewline))]

/-- src/parsers/scilab.rl:72-77.
```
  scilab_entity := |*
    space+                ${ entity = SCILAB_SPACE;   } => scilab_ecallback;
    scilab_comment_entity ${ entity = SCILAB_COMMENT; } => scilab_ecallback;
    # TODO:
    ^space;
  *|;
``` -/
def scilab_entity : Scanner where
  pats := [
  (.all (.plus (.cls (Common.space))) (.setEnt (.own 0)), .ecb),
  (.all (scilab_comment_entity) (.setEnt (.own 1)), .ecb),
  (.cls (Cls.neg (Common.space)), .none)]
  sw := []

end Ohcount.Gram.Scilab

namespace Ohcount.Gram.Shell
open Ohcount.Ragel

/-- src/parsers/shell.rl:47
```
  shell_comment = '#' @comment nonnewline*;
``` -/
def shell_comment : Rx := .seqs [.fin (.cls (Cls.chr 35)) .comment, .star (.cls (Common.nonnewline))]

/-- src/parsers/shell.rl:49-60
```
  shell_sq_str =
    '\'' @enqueue @code (
      newline %{ entity = INTERNAL_NL; } %shell_ccallback
      |
      '\\' newline %{ entity = INTERNAL_NL; } %shell_ccallback
      |
      ws
      |
      [^\r\n\f\t '\\] @code
      |
      '\\' nonnewline @code
    )* '\'' @commit;
``` -/
def shell_sq_str : Rx := .seqs [.fin (.fin (.cls (Cls.chr 39)) .enqueue) .code, .star (.alts [.leave (.leave (Common.newline) (.setEnt .internalNl)) .cb, .seqs [.cls (Cls.chr 92), .leave (.leave (Common.newline) (.setEnt .internalNl)) .cb], .cls (Common.ws), .fin (.cls (Cls.neg (Cls.ranges [(9, 10), (12, 13), (32, 32), (39, 39), (92, 92)]))) .code, .seqs [.cls (Cls.chr 92), .fin (.cls (Common.nonnewline)) .code]]), .fin (.cls (Cls.chr 39)) .commit]

/-- src/parsers/shell.rl:61-72
```
  shell_dq_str =
    '"' @enqueue @code (
      newline %{ entity = INTERNAL_NL; } %shell_ccallback
      |
      '\\' newline %{ entity = INTERNAL_NL; } %shell_ccallback
      |
      ws
      |
      [^\r\n\f\t "\\] @code
      |
      '\\' nonnewline @code
    )* '"' @commit;
``` -/
def shell_dq_str : Rx := .seqs [.fin (.fin (.cls (Cls.chr 34)) .enqueue) .code, .star (.alts [.leave (.leave (Common.newline) (.setEnt .internalNl)) .cb, .seqs [.cls (Cls.chr 92), .leave (.leave (Common.newline) (.setEnt .internalNl)) .cb], .cls (Common.ws), .fin (.cls (Cls.neg (Cls.ranges [(9, 10), (12, 13), (32, 32), (34, 34), (92, 92)]))) .code, .seqs [.cls (Cls.chr 92), .fin (.cls (Common.nonnewline)) .code]]), .fin (.cls (Cls.chr 34)) .commit]

/-- src/parsers/shell.rl:74
```
  shell_string = shell_sq_str | shell_dq_str;
``` -/
def shell_string : Rx := .alts [shell_sq_str, shell_dq_str]

/-- src/parsers/shell.rl:76-82 with the cases of its callback (src/parsers/shell.rl:31-45).
```
  shell_line := |*
    spaces         ${ entity = SHELL_SPACE; } => shell_ccallback;
    shell_comment;
    shell_string;
    newline        ${ entity = NEWLINE;     } => shell_ccallback;
    ^space         ${ entity = SHELL_ANY;   } => shell_ccallback;
  *|;
``` -/
def shell_line : Scanner where
  pats := [
  (.all (Common.spaces) (.setEnt (.own 0)), .cb),
  (shell_comment, .none),
  (shell_string, .none),
  (.all (Common.newline) (.setEnt .newline), .cb),
  (.all (.cls (Cls.neg (Common.space))) (.setEnt (.own 3)), .cb)]
  sw := [((.own 0), .ls), ((.own 3), .code), (.internalNl, .internalNewline), (.newline, .newline)]

/-- src/parsers/shell.rl:90
```
  shell_comment_entity = '#' nonnewline*;
``` -/
def shell_comment_entity : Rx := .seqs [.cls (Cls.chr 35), .star (.cls (Common.nonnewline))]

/-- src/parsers/shell.rl:92-97.
```
  shell_entity := |*
    space+               ${ entity = SHELL_SPACE;   } => shell_ecallback;
    shell_comment_entity ${ entity = SHELL_COMMENT; } => shell_ecallback;
    # TODO:
    ^space;
  *|;
``` -/
def shell_entity : Scanner where
  pats := [
  (.all (.plus (.cls (Common.space))) (.setEnt (.own 0)), .ecb),
  (.all (shell_comment_entity) (.setEnt (.own 1)), .ecb),
  (.cls (Cls.neg (Common.space)), .none)]
  sw := []

end Ohcount.Gram.Shell

namespace Ohcount.Gram.Smalltalk
open Ohcount.Ragel

/-- src/parsers/smalltalk.rl:47-54
```
  smalltalk_comment =
    '"' @comment (
      newline %{ entity = INTERNAL_NL; } %smalltalk_ccallback
      |
      ws
      |
      [^\r\n\f\t "] @comment
    )* '"';
``` -/
def smalltalk_comment : Rx := .seqs [.fin (.cls (Cls.chr 34)) .comment, .star (.alts [.leave (.leave (Common.newline) (.setEnt .internalNl)) .cb, .cls (Common.ws), .fin (.cls (Cls.neg (Cls.ranges [(9, 10), (12, 13), (32, 32), (34, 34)]))) .comment]), .cls (Cls.chr 34)]

/-- src/parsers/smalltalk.rl:56
```
  smalltalk_string = '\'' @code [^\r\n\f']* '\'';
``` -/
def smalltalk_string : Rx := .seqs [.fin (.cls (Cls.chr 39)) .code, .star (.cls (Cls.neg (Cls.ranges [(10, 10), (12, 13), (39, 39)]))), .cls (Cls.chr 39)]

/-- src/parsers/smalltalk.rl:58-64 with the cases of its callback (src/parsers/smalltalk.rl:31-45).
```
  smalltalk_line := |*
    spaces             ${ entity = SMALLTALK_SPACE; } => smalltalk_ccallback;
    smalltalk_comment;
    smalltalk_string;
    newline            ${ entity = NEWLINE;         } => smalltalk_ccallback;
    ^space             ${ entity = SMALLTALK_ANY;   } => smalltalk_ccallback;
  *|;
``` -/
def smalltalk_line : Scanner where
  pats := [
  (.all (Common.spaces) (.setEnt (.own 0)), .cb),
  (smalltalk_comment, .none),
  (smalltalk_string, .none),
  (.all (Common.newline) (.setEnt .newline), .cb),
  (.all (.cls (Cls.neg (Common.space))) (.setEnt (.own 3)), .cb)]
  sw := [((.own 0), .ls), ((.own 3), .code), (.internalNl, .internalNewline), (.newline, .newline)]

/-- src/parsers/smalltalk.rl:73
```
  smalltalk_comment_entity = '"' any* :>> '"';
``` -/
def smalltalk_comment_entity : Rx := .guard (.seqs [.cls (Cls.chr 34), .star (.cls (Cls.any))]) (.cls (Cls.chr 34))

/-- src/parsers/smalltalk.rl:75-80.
```
  smalltalk_entity := |*
    space+                   ${ entity = SMALLTALK_SPACE;   } => smalltalk_ecallback;
    smalltalk_comment_entity ${ entity = SMALLTALK_COMMENT; } => smalltalk_ecallback;
    # TODO:
    ^space;
  *|;
``` -/
def smalltalk_entity : Scanner where
  pats := [
  (.all (.plus (.cls (Common.space))) (.setEnt (.own 0)), .ecb),
  (.all (smalltalk_comment_entity) (.setEnt (.own 1)), .ecb),
  (.cls (Cls.neg (Common.space)), .none)]
  sw := []

end Ohcount.Gram.Smalltalk

namespace Ohcount.Gram.Sql
open Ohcount.Ragel

/-- src/parsers/sql.rl:47
```
  sql_line_comment = ('--' | '#' | '//') @comment nonnewline*;
``` -/
def sql_line_comment : Rx := .seqs [.fin (.alts [.lit [45, 45], .cls (Cls.chr 35), .lit [47, 47]]) .comment, .star (.cls (Common.nonnewline))]

/-- src/parsers/sql.rl:48-55
```
  sql_c_block_comment =
    '/*' @comment (
      newline %{ entity = INTERNAL_NL; } %sql_ccallback
      |
      ws
      |
      (nonnewline - ws) @comment
    )* :>> '*/';
``` -/
def sql_c_block_comment : Rx := .guard (.seqs [.fin (.lit [47, 42]) .comment, .star (.alts [.leave (.leave (Common.newline) (.setEnt .internalNl)) .cb, .cls (Common.ws), .fin (.cls (Cls.diff (Common.nonnewline) (Common.ws))) .comment])]) (.lit [42, 47])

/-- src/parsers/sql.rl:56-63
```
  sql_block_comment =
    '{' @comment (
      newline %{ entity = INTERNAL_NL; } %sql_ccallback
      |
      ws
      |
      (nonnewline - ws) @comment
    )* :>> '}';
``` -/
def sql_block_comment : Rx := .guard (.seqs [.fin (.cls (Cls.chr 123)) .comment, .star (.alts [.leave (.leave (Common.newline) (.setEnt .internalNl)) .cb, .cls (Common.ws), .fin (.cls (Cls.diff (Common.nonnewline) (Common.ws))) .comment])]) (.cls (Cls.chr 125))

/-- src/parsers/sql.rl:64
```
  sql_comment = sql_line_comment | sql_c_block_comment | sql_block_comment;
``` -/
def sql_comment : Rx := .alts [sql_line_comment, sql_c_block_comment, sql_block_comment]

/-- src/parsers/sql.rl:66
```
  sql_sq_str = '\'' @code ([^\r\n\f'\\] | '\\' nonnewline)* '\'';
``` -/
def sql_sq_str : Rx := .seqs [.fin (.cls (Cls.chr 39)) .code, .star (.alts [.cls (Cls.neg (Cls.ranges [(10, 10), (12, 13), (39, 39), (92, 92)])), .seqs [.cls (Cls.chr 92), .cls (Common.nonnewline)]]), .cls (Cls.chr 39)]

/-- src/parsers/sql.rl:67
```
  sql_dq_str = '"' @code ([^\r\n\f"\\] | '\\' nonnewline)* '"';
``` -/
def sql_dq_str : Rx := .seqs [.fin (.cls (Cls.chr 34)) .code, .star (.alts [.cls (Cls.neg (Cls.ranges [(10, 10), (12, 13), (34, 34), (92, 92)])), .seqs [.cls (Cls.chr 92), .cls (Common.nonnewline)]]), .cls (Cls.chr 34)]

/-- src/parsers/sql.rl:68
```
  sql_string = sql_sq_str | sql_dq_str;
``` -/
def sql_string : Rx := .alts [sql_sq_str, sql_dq_str]

/-- src/parsers/sql.rl:70-76 with the cases of its callback (src/parsers/sql.rl:31-45).
```
  sql_line := |*
    spaces       ${ entity = SQL_SPACE; } => sql_ccallback;
    sql_comment;
    sql_string;
    newline      ${ entity = NEWLINE;   } => sql_ccallback;
    ^space       ${ entity = SQL_ANY;   } => sql_ccallback;
  *|;
``` -/
def sql_line : Scanner where
  pats := [
  (.all (Common.spaces) (.setEnt (.own 0)), .cb),
  (sql_comment, .none),
  (sql_string, .none),
  (.all (Common.newline) (.setEnt .newline), .cb),
  (.all (.cls (Cls.neg (Common.space))) (.setEnt (.own 3)), .cb)]
  sw := [((.own 0), .ls), ((.own 3), .code), (.internalNl, .internalNewline), (.newline, .newline)]

/-- src/parsers/sql.rl:84
```
  sql_line_comment_entity = ('--' | '#' | '//') nonnewline*;
``` -/
def sql_line_comment_entity : Rx := .seqs [.alts [.lit [45, 45], .cls (Cls.chr 35), .lit [47, 47]], .star (.cls (Common.nonnewline))]

/-- src/parsers/sql.rl:85
```
  sql_c_block_comment_entity = '/*' any* :>> '*/';
``` -/
def sql_c_block_comment_entity : Rx := .guard (.seqs [.lit [47, 42], .star (.cls (Cls.any))]) (.lit [42, 47])

/-- src/parsers/sql.rl:86
```
  sql_block_comment_entity = '{' any* :>> '}';
``` -/
def sql_block_comment_entity : Rx := .guard (.seqs [.cls (Cls.chr 123), .star (.cls (Cls.any))]) (.cls (Cls.chr 125))

/-- src/parsers/sql.rl:87-88
```
  sql_comment_entity = sql_line_comment_entity | sql_c_block_comment_entity |
    sql_block_comment_entity;
``` -/
def sql_comment_entity : Rx := .alts [sql_line_comment_entity, sql_c_block_comment_entity, sql_block_comment_entity]

/-- src/parsers/sql.rl:90-95.
```
  sql_entity := |*
    space+             ${ entity = SQL_SPACE;   } => sql_ecallback;
    sql_comment_entity ${ entity = SQL_COMMENT; } => sql_ecallback;
    # TODO:
    ^space;
  *|;
``` -/
def sql_entity : Scanner where
  pats := [
  (.all (.plus (.cls (Common.space))) (.setEnt (.own 0)), .ecb),
  (.all (sql_comment_entity) (.setEnt (.own 1)), .ecb),
  (.cls (Cls.neg (Common.space)), .none)]
  sw := []

end Ohcount.Gram.Sql

namespace Ohcount.Gram.Stratego
open Ohcount.Ragel

/-- src/parsers/stratego.rl:45-52
```
  stratego_line_comment =
    '//' @comment (
      escaped_newline %{ entity = INTERNAL_NL; } %stratego_ccallback
      |
      ws
      |
      (nonnewline - ws) @comment
    )*;
``` -/
def stratego_line_comment : Rx := .seqs [.fin (.lit [47, 47]) .comment, .star (.alts [.leave (.leave (Common.escaped_newline) (.setEnt .internalNl)) .cb, .cls (Common.ws), .fin (.cls (Cls.diff (Common.nonnewline) (Common.ws))) .comment])]

/-- src/parsers/stratego.rl:54-61
```
  stratego_block_comment =
    '/*' @comment (
      newline %{ entity = INTERNAL_NL; } %stratego_ccallback
      |
      ws
      |
      (nonnewline - ws) @comment
    )* :>> '*/';
``` -/
def stratego_block_comment : Rx := .guard (.seqs [.fin (.lit [47, 42]) .comment, .star (.alts [.leave (.leave (Common.newline) (.setEnt .internalNl)) .cb, .cls (Common.ws), .fin (.cls (Cls.diff (Common.nonnewline) (Common.ws))) .comment])]) (.lit [42, 47])

/-- src/parsers/stratego.rl:63
```
  stratego_comment = stratego_line_comment | stratego_block_comment;
``` -/
def stratego_comment : Rx := .alts [stratego_line_comment, stratego_block_comment]

/-- src/parsers/stratego.rl:65-74
```
  stratego_dq_str =
    '"' @code (
      escaped_newline %{ entity = INTERNAL_NL; } %stratego_ccallback
      |
      ws
      |
      [^\t "\\] @code
      |
      '\\' nonnewline @code
    )* '"';
``` -/
def stratego_dq_str : Rx := .seqs [.fin (.cls (Cls.chr 34)) .code, .star (.alts [.leave (.leave (Common.escaped_newline) (.setEnt .internalNl)) .cb, .cls (Common.ws), .fin (.cls (Cls.neg (Cls.chars [9, 32, 34, 92]))) .code, .seqs [.cls (Cls.chr 92), .fin (.cls (Common.nonnewline)) .code]]), .cls (Cls.chr 34)]

/-- src/parsers/stratego.rl:76-81
```
  stratego_char_str =
    '\'' (
      ('\\' [.] '\'') @code
      |
      ([^'\\] '\'') @code
    );
``` -/
def stratego_char_str : Rx := .seqs [.cls (Cls.chr 39), .alts [.fin (.lit [92, 46, 39]) .code, .fin (.seqs [.cls (Cls.neg (Cls.chars [39, 92])), .cls (Cls.chr 39)]) .code]]

/-- src/parsers/stratego.rl:83
```
  stratego_string = stratego_dq_str | stratego_char_str;
``` -/
def stratego_string : Rx := .alts [stratego_dq_str, stratego_char_str]

/-- src/parsers/stratego.rl:85-91 with the cases of its callback (src/parsers/stratego.rl:29-43).
```
  stratego_line := |*
    spaces    ${ entity = STRATEGO_SPACE; } => stratego_ccallback;
    stratego_comment;
    stratego_string;
    newline   ${ entity = NEWLINE; } => stratego_ccallback;
    ^space    ${ entity = STRATEGO_ANY;   } => stratego_ccallback;
  *|;
``` -/
def stratego_line : Scanner where
  pats := [
  (.all (Common.spaces) (.setEnt (.own 0)), .cb),
  (stratego_comment, .none),
  (stratego_string, .none),
  (.all (Common.newline) (.setEnt .newline), .cb),
  (.all (.cls (Cls.neg (Common.space))) (.setEnt (.own 3)), .cb)]
  sw := [((.own 0), .ls), ((.own 3), .code), (.internalNl, .internalNewline), (.newline, .newline)]

/-- src/parsers/stratego.rl:100
```
  stratego_line_comment_entity = '//' (escaped_newline | nonnewline)*;
``` -/
def stratego_line_comment_entity : Rx := .seqs [.lit [47, 47], .star (.alts [Common.escaped_newline, .cls (Common.nonnewline)])]

/-- src/parsers/stratego.rl:101
```
  stratego_block_comment_entity = '/*' any* :>> '*/';
``` -/
def stratego_block_comment_entity : Rx := .guard (.seqs [.lit [47, 42], .star (.cls (Cls.any))]) (.lit [42, 47])

/-- src/parsers/stratego.rl:102
```
  stratego_comment_entity = stratego_line_comment_entity | stratego_block_comment_entity;
``` -/
def stratego_comment_entity : Rx := .alts [stratego_line_comment_entity, stratego_block_comment_entity]

/-- src/parsers/stratego.rl:103
```
  stratego_string_entity = dq_str_with_escapes | ('\'' (('\\' [.] '\'') | ([^'\\] '\'')));
``` -/
def stratego_string_entity : Rx := .alts [Common.dq_str_with_escapes, .seqs [.cls (Cls.chr 39), .alts [.lit [92, 46, 39], .seqs [.cls (Cls.neg (Cls.chars [39, 92])), .cls (Cls.chr 39)]]]]

/-- src/parsers/stratego.rl:105-111.
```
  stratego_entity := |*
    space+                  ${ entity = STRATEGO_SPACE;   } => stratego_ecallback;
    stratego_comment_entity ${ entity = STRATEGO_COMMENT; } => stratego_ecallback;
    stratego_string_entity  ${ entity = STRATEGO_STRING;   } => stratego_ecallback;
    # TODO;
    ^space;
  *|;
``` -/
def stratego_entity : Scanner where
  pats := [
  (.all (.plus (.cls (Common.space))) (.setEnt (.own 0)), .ecb),
  (.all (stratego_comment_entity) (.setEnt (.own 1)), .ecb),
  (.all (stratego_string_entity) (.setEnt (.own 2)), .ecb),
  (.cls (Cls.neg (Common.space)), .none)]
  sw := []

end Ohcount.Gram.Stratego

namespace Ohcount.Gram.StructuredBasic
open Ohcount.Ragel

/-- src/parsers/structured_basic.rl:45
```
  sb_comment = ('\'' | /rem/i) @comment nonnewline*;
``` -/
def sb_comment : Rx := .seqs [.fin (.alts [.cls (Cls.chr 39), .seqs [.cls (Cls.chars [82, 114]), .cls (Cls.chars [69, 101]), .cls (Cls.chars [77, 109])]]) .comment, .star (.cls (Common.nonnewline))]

/-- src/parsers/structured_basic.rl:47
```
  sb_string = '"' @code ([^\r\n\f"\\] | '\\' nonnewline)* '"';
``` -/
def sb_string : Rx := .seqs [.fin (.cls (Cls.chr 34)) .code, .star (.alts [.cls (Cls.neg (Cls.ranges [(10, 10), (12, 13), (34, 34), (92, 92)])), .seqs [.cls (Cls.chr 92), .cls (Common.nonnewline)]]), .cls (Cls.chr 34)]

/-- src/parsers/structured_basic.rl:49-55 with the cases of its callback (src/parsers/structured_basic.rl:29-43).
```
  sb_line := |*
    spaces      ${ entity = SB_SPACE; } => sb_ccallback;
    sb_comment;
    sb_string;
    newline     ${ entity = NEWLINE;  } => sb_ccallback;
    ^space      ${ entity = SB_ANY;   } => sb_ccallback;
  *|;
``` -/
def sb_line : Scanner where
  pats := [
  (.all (Common.spaces) (.setEnt (.own 0)), .cb),
  (sb_comment, .none),
  (sb_string, .none),
  (.all (Common.newline) (.setEnt .newline), .cb),
  (.all (.cls (Cls.neg (Common.space))) (.setEnt (.own 3)), .cb)]
  sw := [((.own 0), .ls), ((.own 3), .code), (.internalNl, .internalNewline), (.newline, .newline)]

/-- src/parsers/structured_basic.rl:63
```
  sb_comment_entity = ('\'' | /rem/i) nonnewline*;
``` -/
def sb_comment_entity : Rx := .seqs [.alts [.cls (Cls.chr 39), .seqs [.cls (Cls.chars [82, 114]), .cls (Cls.chars [69, 101]), .cls (Cls.chars [77, 109])]], .star (.cls (Common.nonnewline))]

/-- src/parsers/structured_basic.rl:65-70.
```
  sb_entity := |*
    space+            ${ entity = SB_SPACE;   } => sb_ecallback;
    sb_comment_entity ${ entity = SB_COMMENT; } => sb_ecallback;
    # TODO:
    ^space;
  *|;
``` -/
def sb_entity : Scanner where
  pats := [
  (.all (.plus (.cls (Common.space))) (.setEnt (.own 0)), .ecb),
  (.all (sb_comment_entity) (.setEnt (.own 1)), .ecb),
  (.cls (Cls.neg (Common.space)), .none)]
  sw := []

end Ohcount.Gram.StructuredBasic

namespace Ohcount.Gram.Swift
open Ohcount.Ragel

/-- src/parsers/swift.rl:45-52
```
  swift_line_comment =
    '//' @comment (
      escaped_newline %{ entity = INTERNAL_NL; } %swift_ccallback
      |
      ws
      |
      (nonnewline - ws) @comment
    )*;
``` -/
def swift_line_comment : Rx := .seqs [.fin (.lit [47, 47]) .comment, .star (.alts [.leave (.leave (Common.escaped_newline) (.setEnt .internalNl)) .cb, .cls (Common.ws), .fin (.cls (Cls.diff (Common.nonnewline) (Common.ws))) .comment])]

/-- src/parsers/swift.rl:53-60
```
  swift_block_comment =
    '/*' @comment (
      newline %{ entity = INTERNAL_NL; } %swift_ccallback
      |
      ws
      |
      (nonnewline - ws) @comment
    )* :>> '*/';
``` -/
def swift_block_comment : Rx := .guard (.seqs [.fin (.lit [47, 42]) .comment, .star (.alts [.leave (.leave (Common.newline) (.setEnt .internalNl)) .cb, .cls (Common.ws), .fin (.cls (Cls.diff (Common.nonnewline) (Common.ws))) .comment])]) (.lit [42, 47])

/-- src/parsers/swift.rl:61
```
  swift_comment = swift_line_comment | swift_block_comment;
``` -/
def swift_comment : Rx := .alts [swift_line_comment, swift_block_comment]

/-- src/parsers/swift.rl:63-68 with the cases of its callback (src/parsers/swift.rl:29-43).
```
  swift_line := |*
    spaces    ${ entity = SWIFT_SPACE; } => swift_ccallback;
    swift_comment;
    newline   ${ entity = NEWLINE; } => swift_ccallback;
    ^space    ${ entity = SWIFT_ANY;   } => swift_ccallback;
  *|;
``` -/
def swift_line : Scanner where
  pats := [
  (.all (Common.spaces) (.setEnt (.own 0)), .cb),
  (swift_comment, .none),
  (.all (Common.newline) (.setEnt .newline), .cb),
  (.all (.cls (Cls.neg (Common.space))) (.setEnt (.own 2)), .cb)]
  sw := [((.own 0), .ls), ((.own 2), .code), (.internalNl, .internalNewline), (.newline, .newline)]

/-- src/parsers/swift.rl:74
```
  swift_line_comment_entity = '//' (escaped_newline | nonnewline)*;
``` -/
def swift_line_comment_entity : Rx := .seqs [.lit [47, 47], .star (.alts [Common.escaped_newline, .cls (Common.nonnewline)])]

/-- src/parsers/swift.rl:75
```
  swift_block_comment_entity = '/*' any* :>> '*/';
``` -/
def swift_block_comment_entity : Rx := .guard (.seqs [.lit [47, 42], .star (.cls (Cls.any))]) (.lit [42, 47])

/-- src/parsers/swift.rl:76
```
  swift_comment_entity = swift_line_comment_entity | swift_block_comment_entity;
``` -/
def swift_comment_entity : Rx := .alts [swift_line_comment_entity, swift_block_comment_entity]

/-- src/parsers/swift.rl:78-82.
```
  swift_entity := |*
    space+                 ${ entity = SWIFT_SPACE;      } => swift_ecallback;
    swift_comment_entity    ${ entity = SWIFT_COMMENT;    } => swift_ecallback;
    ^space;
  *|;
``` -/
def swift_entity : Scanner where
  pats := [
  (.all (.plus (.cls (Common.space))) (.setEnt (.own 0)), .ecb),
  (.all (swift_comment_entity) (.setEnt (.own 1)), .ecb),
  (.cls (Cls.neg (Common.space)), .none)]
  sw := []

end Ohcount.Gram.Swift

namespace Ohcount.Gram.Tcl
open Ohcount.Ragel

/-- src/parsers/tcl.rl:47-54
```
  tcl_comment =
    '#' @comment (
      escaped_newline %{ entity = INTERNAL_NL; } %tcl_ccallback
      |
      ws
      |
      (nonnewline - ws) @comment
    )*;
``` -/
def tcl_comment : Rx := .seqs [.fin (.cls (Cls.chr 35)) .comment, .star (.alts [.leave (.leave (Common.escaped_newline) (.setEnt .internalNl)) .cb, .cls (Common.ws), .fin (.cls (Cls.diff (Common.nonnewline) (Common.ws))) .comment])]

/-- src/parsers/tcl.rl:56-65
```
  tcl_string =
    '"' @code (
      escaped_newline %{ entity = INTERNAL_NL; } %tcl_ccallback
      |
      ws
      |
      [^\r\n\f\t "\\] @code
      |
      '\\' nonnewline @code
    )* '"';
``` -/
def tcl_string : Rx := .seqs [.fin (.cls (Cls.chr 34)) .code, .star (.alts [.leave (.leave (Common.escaped_newline) (.setEnt .internalNl)) .cb, .cls (Common.ws), .fin (.cls (Cls.neg (Cls.ranges [(9, 10), (12, 13), (32, 32), (34, 34), (92, 92)]))) .code, .seqs [.cls (Cls.chr 92), .fin (.cls (Common.nonnewline)) .code]]), .cls (Cls.chr 34)]

/-- src/parsers/tcl.rl:67-73 with the cases of its callback (src/parsers/tcl.rl:31-45).
```
  tcl_line := |*
    spaces       ${ entity = TCL_SPACE; } => tcl_ccallback;
    tcl_comment;
    tcl_string;
    newline      ${ entity = NEWLINE;   } => tcl_ccallback;
    ^space       ${ entity = TCL_ANY;   } => tcl_ccallback;
  *|;
``` -/
def tcl_line : Scanner where
  pats := [
  (.all (Common.spaces) (.setEnt (.own 0)), .cb),
  (tcl_comment, .none),
  (tcl_string, .none),
  (.all (Common.newline) (.setEnt .newline), .cb),
  (.all (.cls (Cls.neg (Common.space))) (.setEnt (.own 3)), .cb)]
  sw := [((.own 0), .ls), ((.own 3), .code), (.internalNl, .internalNewline), (.newline, .newline)]

/-- src/parsers/tcl.rl:81
```
  tcl_comment_entity = '#' (escaped_newline | nonnewline)*;
``` -/
def tcl_comment_entity : Rx := .seqs [.cls (Cls.chr 35), .star (.alts [Common.escaped_newline, .cls (Common.nonnewline)])]

/-- src/parsers/tcl.rl:83-88.
```
  tcl_entity := |*
    space+             ${ entity = TCL_SPACE;   } => tcl_ecallback;
    tcl_comment_entity ${ entity = TCL_COMMENT; } => tcl_ecallback;
    # TODO:
    ^space;
  *|;
``` -/
def tcl_entity : Scanner where
  pats := [
  (.all (.plus (.cls (Common.space))) (.setEnt (.own 0)), .ecb),
  (.all (tcl_comment_entity) (.setEnt (.own 1)), .ecb),
  (.cls (Cls.neg (Common.space)), .none)]
  sw := []

end Ohcount.Gram.Tcl

