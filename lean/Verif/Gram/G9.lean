import Verif.Gram.Common

/-! Scanners transcribed from src/parsers/: powershell.rl, prolog.rl, puppet.rl, python.rl, r.rl, rebol.rl, rexx.rl, ruby.rl, rust.rl. Generated by tools/gen_grammars.py. -/

namespace Ohcount.Gram.Powershell
open Ohcount.Ragel

/-- src/parsers/powershell.rl:45
```
  powershell_line_comment = '#' @comment nonnewline*;
``` -/
def powershell_line_comment : Rx := .seqs [.fin (.cls (Cls.chr 35)) .comment, .star (.cls (Common.nonnewline))]

/-- src/parsers/powershell.rl:46-53
```
  powershell_block_comment =
    '<#' @comment (
      newline %{ entity = INTERNAL_NL; } %powershell_ccallback
      |
      ws
      |
      (nonnewline - ws) @comment
    )* :>> '#>';
``` -/
def powershell_block_comment : Rx := .guard (.seqs [.fin (.lit [60, 35]) .comment, .star (.alts [.leave (.leave (Common.newline) (.setEnt .internalNl)) .cb, .cls (Common.ws), .fin (.cls (Cls.diff (Common.nonnewline) (Common.ws))) .comment])]) (.lit [35, 62])

/-- src/parsers/powershell.rl:54
```
  powershell_comment = powershell_line_comment | powershell_block_comment;
``` -/
def powershell_comment : Rx := .alts [powershell_line_comment, powershell_block_comment]

/-- src/parsers/powershell.rl:56-67
```
  powershell_sq_str =
    '\'' @enqueue @code (
      newline %{ entity = INTERNAL_NL; } %powershell_ccallback
      |
      '\\' newline %{ entity = INTERNAL_NL; } %powershell_ccallback
      |
      ws
      |
      [^\r\n\f\t '\\] @code
      |
      '\\' nonnewline @code
    )* '\'' @commit;
``` -/
def powershell_sq_str : Rx := .seqs [.fin (.fin (.cls (Cls.chr 39)) .enqueue) .code, .star (.alts [.leave (.leave (Common.newline) (.setEnt .internalNl)) .cb, .seqs [.cls (Cls.chr 92), .leave (.leave (Common.newline) (.setEnt .internalNl)) .cb], .cls (Common.ws), .fin (.cls (Cls.neg (Cls.ranges [(9, 10), (12, 13), (32, 32), (39, 39), (92, 92)]))) .code, .seqs [.cls (Cls.chr 92), .fin (.cls (Common.nonnewline)) .code]]), .fin (.cls (Cls.chr 39)) .commit]

/-- src/parsers/powershell.rl:68-79
```
  powershell_dq_str =
    '"' @enqueue @code (
      newline %{ entity = INTERNAL_NL; } %powershell_ccallback
      |
      '\\' newline %{ entity = INTERNAL_NL; } %powershell_ccallback
      |
      ws
      |
      [^\r\n\f\t "\\] @code
      |
      '\\' nonnewline @code
    )* '"' @commit;
``` -/
def powershell_dq_str : Rx := .seqs [.fin (.fin (.cls (Cls.chr 34)) .enqueue) .code, .star (.alts [.leave (.leave (Common.newline) (.setEnt .internalNl)) .cb, .seqs [.cls (Cls.chr 92), .leave (.leave (Common.newline) (.setEnt .internalNl)) .cb], .cls (Common.ws), .fin (.cls (Cls.neg (Cls.ranges [(9, 10), (12, 13), (32, 32), (34, 34), (92, 92)]))) .code, .seqs [.cls (Cls.chr 92), .fin (.cls (Common.nonnewline)) .code]]), .fin (.cls (Cls.chr 34)) .commit]

/-- src/parsers/powershell.rl:81
```
  powershell_string = powershell_sq_str | powershell_dq_str;
``` -/
def powershell_string : Rx := .alts [powershell_sq_str, powershell_dq_str]

/-- src/parsers/powershell.rl:83-89 with the cases of its callback (src/parsers/powershell.rl:29-43).
```
  powershell_line := |*
    spaces         ${ entity = POWERSHELL_SPACE; } => powershell_ccallback;
    powershell_comment;
    powershell_string;
    newline        ${ entity = NEWLINE;     } => powershell_ccallback;
    ^space         ${ entity = POWERSHELL_ANY;   } => powershell_ccallback;
  *|;
``` -/
def powershell_line : Scanner where
  pats := [
  (.all (Common.spaces) (.setEnt (.own 0)), .cb),
  (powershell_comment, .none),
  (powershell_string, .none),
  (.all (Common.newline) (.setEnt .newline), .cb),
  (.all (.cls (Cls.neg (Common.space))) (.setEnt (.own 3)), .cb)]
  sw := [((.own 0), .ls), ((.own 3), .code), (.internalNl, .internalNewline), (.newline, .newline)]

/-- src/parsers/powershell.rl:97
```
  powershell_line_comment_entity = '#' nonnewline*;
``` -/
def powershell_line_comment_entity : Rx := .seqs [.cls (Cls.chr 35), .star (.cls (Common.nonnewline))]

/-- src/parsers/powershell.rl:98
```
  powershell_block_comment_entity = '<#' any* :>> '#>';
``` -/
def powershell_block_comment_entity : Rx := .guard (.seqs [.lit [60, 35], .star (.cls (Cls.any))]) (.lit [35, 62])

/-- src/parsers/powershell.rl:99
```
  powershell_comment_entity = powershell_line_comment_entity | powershell_block_comment_entity;
``` -/
def powershell_comment_entity : Rx := .alts [powershell_line_comment_entity, powershell_block_comment_entity]

/-- src/parsers/powershell.rl:101-106.
```
  powershell_entity := |*
    space+                    ${ entity = POWERSHELL_SPACE;   } => powershell_ecallback;
    powershell_comment_entity ${ entity = POWERSHELL_COMMENT; } => powershell_ecallback;
    # TODO:
    ^space;
  *|;
``` -/
def powershell_entity : Scanner where
  pats := [
  (.all (.plus (.cls (Common.space))) (.setEnt (.own 0)), .ecb),
  (.all (powershell_comment_entity) (.setEnt (.own 1)), .ecb),
  (.cls (Cls.neg (Common.space)), .none)]
  sw := []

end Ohcount.Gram.Powershell

namespace Ohcount.Gram.Prolog
open Ohcount.Ragel

/-- src/parsers/prolog.rl:47
```
  prolog_line_comment = '%' @comment nonnewline*;
``` -/
def prolog_line_comment : Rx := .seqs [.fin (.cls (Cls.chr 37)) .comment, .star (.cls (Common.nonnewline))]

/-- src/parsers/prolog.rl:48-55
```
  prolog_block_comment =
    '/*' @comment (
      newline %{ entity = INTERNAL_NL; } %prolog_ccallback
      |
      ws
      |
      (nonnewline - ws) @comment
    )* :>> '*/';
``` -/
def prolog_block_comment : Rx := .guard (.seqs [.fin (.lit [47, 42]) .comment, .star (.alts [.leave (.leave (Common.newline) (.setEnt .internalNl)) .cb, .cls (Common.ws), .fin (.cls (Cls.diff (Common.nonnewline) (Common.ws))) .comment])]) (.lit [42, 47])

/-- src/parsers/prolog.rl:56
```
  prolog_comment = prolog_line_comment | prolog_block_comment;
``` -/
def prolog_comment : Rx := .alts [prolog_line_comment, prolog_block_comment]

/-- src/parsers/prolog.rl:58
```
  prolog_sq_str = '\'' @code ([^\r\n\f'\\] | '\\' nonnewline)* '\'';
``` -/
def prolog_sq_str : Rx := .seqs [.fin (.cls (Cls.chr 39)) .code, .star (.alts [.cls (Cls.neg (Cls.ranges [(10, 10), (12, 13), (39, 39), (92, 92)])), .seqs [.cls (Cls.chr 92), .cls (Common.nonnewline)]]), .cls (Cls.chr 39)]

/-- src/parsers/prolog.rl:59
```
  prolog_dq_str = '"' @code ([^\r\n\f"\\] | '\\' nonnewline)* '"';
``` -/
def prolog_dq_str : Rx := .seqs [.fin (.cls (Cls.chr 34)) .code, .star (.alts [.cls (Cls.neg (Cls.ranges [(10, 10), (12, 13), (34, 34), (92, 92)])), .seqs [.cls (Cls.chr 92), .cls (Common.nonnewline)]]), .cls (Cls.chr 34)]

/-- src/parsers/prolog.rl:60
```
  prolog_string = prolog_sq_str | prolog_dq_str;
``` -/
def prolog_string : Rx := .alts [prolog_sq_str, prolog_dq_str]

/-- src/parsers/prolog.rl:62-68 with the cases of its callback (src/parsers/prolog.rl:31-45).
```
  prolog_line := |*
    spaces      ${ entity = PROLOG_SPACE; } => prolog_ccallback;
    prolog_comment;
    prolog_string;
    newline     ${ entity = NEWLINE;   } => prolog_ccallback;
    ^space      ${ entity = PROLOG_ANY;   } => prolog_ccallback;
  *|;
``` -/
def prolog_line : Scanner where
  pats := [
  (.all (Common.spaces) (.setEnt (.own 0)), .cb),
  (prolog_comment, .none),
  (prolog_string, .none),
  (.all (Common.newline) (.setEnt .newline), .cb),
  (.all (.cls (Cls.neg (Common.space))) (.setEnt (.own 3)), .cb)]
  sw := [((.own 0), .ls), ((.own 3), .code), (.internalNl, .internalNewline), (.newline, .newline)]

/-- src/parsers/prolog.rl:77
```
  prolog_line_comment_entity = '%' nonnewline*;
``` -/
def prolog_line_comment_entity : Rx := .seqs [.cls (Cls.chr 37), .star (.cls (Common.nonnewline))]

/-- src/parsers/prolog.rl:78
```
  prolog_block_comment_entity = '/*' any* :>> '*/';
``` -/
def prolog_block_comment_entity : Rx := .guard (.seqs [.lit [47, 42], .star (.cls (Cls.any))]) (.lit [42, 47])

/-- src/parsers/prolog.rl:79
```
  prolog_comment_entity = prolog_line_comment_entity | prolog_block_comment_entity;
``` -/
def prolog_comment_entity : Rx := .alts [prolog_line_comment_entity, prolog_block_comment_entity]

/-- src/parsers/prolog.rl:81-86.
```
  prolog_entity := |*
    space+                ${ entity = PROLOG_SPACE;   } => prolog_ecallback;
    prolog_comment_entity ${ entity = PROLOG_COMMENT; } => prolog_ecallback;
    # TODO:
    ^space;
  *|;
``` -/
def prolog_entity : Scanner where
  pats := [
  (.all (.plus (.cls (Common.space))) (.setEnt (.own 0)), .ecb),
  (.all (prolog_comment_entity) (.setEnt (.own 1)), .ecb),
  (.cls (Cls.neg (Common.space)), .none)]
  sw := []

end Ohcount.Gram.Prolog

namespace Ohcount.Gram.Puppet
open Ohcount.Ragel

/-- src/parsers/puppet.rl:48
```
  puppet_line_comment = '#' @comment nonnewline*;
``` -/
def puppet_line_comment : Rx := .seqs [.fin (.cls (Cls.chr 35)) .comment, .star (.cls (Common.nonnewline))]

/-- src/parsers/puppet.rl:49-56
```
  puppet_block_comment =
    '/*' @comment (
      newline %{ entity = INTERNAL_NL; } %puppet_ccallback
      |
      ws
      |
      (nonnewline - ws) @code
    )* :>> '*/';
``` -/
def puppet_block_comment : Rx := .guard (.seqs [.fin (.lit [47, 42]) .comment, .star (.alts [.leave (.leave (Common.newline) (.setEnt .internalNl)) .cb, .cls (Common.ws), .fin (.cls (Cls.diff (Common.nonnewline) (Common.ws))) .code])]) (.lit [42, 47])

/-- src/parsers/puppet.rl:57
```
  puppet_comment = puppet_line_comment | puppet_block_comment;
``` -/
def puppet_comment : Rx := .alts [puppet_line_comment, puppet_block_comment]

/-- src/parsers/puppet.rl:59-68
```
  puppet_string =
    '\'' @code (
      newline %{ entity = INTERNAL_NL; } %puppet_ccallback
      |
      ws
      |
      [^\r\n\f\t '\\] @code
      |
      '\\' nonnewline @code
    )* '\'';
``` -/
def puppet_string : Rx := .seqs [.fin (.cls (Cls.chr 39)) .code, .star (.alts [.leave (.leave (Common.newline) (.setEnt .internalNl)) .cb, .cls (Common.ws), .fin (.cls (Cls.neg (Cls.ranges [(9, 10), (12, 13), (32, 32), (39, 39), (92, 92)]))) .code, .seqs [.cls (Cls.chr 92), .fin (.cls (Common.nonnewline)) .code]]), .cls (Cls.chr 39)]

/-- src/parsers/puppet.rl:70-76 with the cases of its callback (src/parsers/puppet.rl:32-46).
```
  puppet_line := |*
    spaces          ${ entity = PUPPET_SPACE; } => puppet_ccallback;
    puppet_comment;
    puppet_string;
    newline         ${ entity = NEWLINE;      } => puppet_ccallback;
    ^space          ${ entity = PUPPET_ANY;   } => puppet_ccallback;
  *|;
``` -/
def puppet_line : Scanner where
  pats := [
  (.all (Common.spaces) (.setEnt (.own 0)), .cb),
  (puppet_comment, .none),
  (puppet_string, .none),
  (.all (Common.newline) (.setEnt .newline), .cb),
  (.all (.cls (Cls.neg (Common.space))) (.setEnt (.own 3)), .cb)]
  sw := [((.own 0), .ls), ((.own 3), .code), (.internalNl, .internalNewline), (.newline, .newline)]

/-- src/parsers/puppet.rl:85
```
  puppet_line_comment_entity = '#' nonnewline*;
``` -/
def puppet_line_comment_entity : Rx := .seqs [.cls (Cls.chr 35), .star (.cls (Common.nonnewline))]

/-- src/parsers/puppet.rl:86
```
  puppet_block_comment_entity = '/*' any* :>> '*/';
``` -/
def puppet_block_comment_entity : Rx := .guard (.seqs [.lit [47, 42], .star (.cls (Cls.any))]) (.lit [42, 47])

/-- src/parsers/puppet.rl:87-88
```
  puppet_comment_entity = puppet_line_comment_entity |
    puppet_block_comment_entity;
``` -/
def puppet_comment_entity : Rx := .alts [puppet_line_comment_entity, puppet_block_comment_entity]

/-- src/parsers/puppet.rl:90-95.
```
  puppet_entity := |*
    space+                ${ entity = PUPPET_SPACE;   } => puppet_ecallback;
    puppet_comment_entity ${ entity = PUPPET_COMMENT; } => puppet_ecallback;
    # TODO:
    ^space;
  *|;
``` -/
def puppet_entity : Scanner where
  pats := [
  (.all (.plus (.cls (Common.space))) (.setEnt (.own 0)), .ecb),
  (.all (puppet_comment_entity) (.setEnt (.own 1)), .ecb),
  (.cls (Cls.neg (Common.space)), .none)]
  sw := []

end Ohcount.Gram.Puppet

namespace Ohcount.Gram.Python
open Ohcount.Ragel

/-- src/parsers/python.rl:47
```
  python_line_comment = ('#' | '//') @comment nonnewline*;
``` -/
def python_line_comment : Rx := .seqs [.fin (.alts [.cls (Cls.chr 35), .lit [47, 47]]) .comment, .star (.cls (Common.nonnewline))]

/-- src/parsers/python.rl:48-55
```
  python_block_comment =
    '/*' @comment (
      newline %{ entity = INTERNAL_NL; } %python_ccallback
      |
      ws
      |
      (nonnewline - ws) @comment
    )* :>> '*/';
``` -/
def python_block_comment : Rx := .guard (.seqs [.fin (.lit [47, 42]) .comment, .star (.alts [.leave (.leave (Common.newline) (.setEnt .internalNl)) .cb, .cls (Common.ws), .fin (.cls (Cls.diff (Common.nonnewline) (Common.ws))) .comment])]) (.lit [42, 47])

/-- src/parsers/python.rl:56-63
```
  python_sq_doc_str =
    '\'\'\'' @comment (
      newline %{ entity = INTERNAL_NL; } %python_ccallback
      |
      ws
      |
      (nonnewline - ws) @comment
    )* :>> '\'\'\'' @comment;
``` -/
def python_sq_doc_str : Rx := .guard (.seqs [.fin (.lit [39, 39, 39]) .comment, .star (.alts [.leave (.leave (Common.newline) (.setEnt .internalNl)) .cb, .cls (Common.ws), .fin (.cls (Cls.diff (Common.nonnewline) (Common.ws))) .comment])]) (.fin (.lit [39, 39, 39]) .comment)

/-- src/parsers/python.rl:64-71
```
  python_dq_doc_str =
    '"""' @comment (
      newline %{ entity = INTERNAL_NL; } %python_ccallback
      |
      ws
      |
      (nonnewline - ws) @comment
    )* :>> '"""' @comment;
``` -/
def python_dq_doc_str : Rx := .guard (.seqs [.fin (.lit [34, 34, 34]) .comment, .star (.alts [.leave (.leave (Common.newline) (.setEnt .internalNl)) .cb, .cls (Common.ws), .fin (.cls (Cls.diff (Common.nonnewline) (Common.ws))) .comment])]) (.fin (.lit [34, 34, 34]) .comment)

/-- src/parsers/python.rl:72-73
```
  python_comment = python_line_comment | python_block_comment |
                   python_sq_doc_str | python_dq_doc_str;
``` -/
def python_comment : Rx := .alts [python_line_comment, python_block_comment, python_sq_doc_str, python_dq_doc_str]

/-- src/parsers/python.rl:75-77
```
  python_sq_str =
    '\'' ([^'] | '\'' [^'] @{ fhold; }) @{ fhold; } # make sure it's not '''
      ([^\r\n\f'\\] | '\\' nonnewline)* '\'';
``` -/
def python_sq_str : Rx := .seqs [.cls (Cls.chr 39), .fin (.alts [.cls (Cls.neg (Cls.chr 39)), .seqs [.cls (Cls.chr 39), .fin (.cls (Cls.neg (Cls.chr 39))) (.fhold 0)]]) (.fhold 1), .star (.alts [.cls (Cls.neg (Cls.ranges [(10, 10), (12, 13), (39, 39), (92, 92)])), .seqs [.cls (Cls.chr 92), .cls (Common.nonnewline)]]), .cls (Cls.chr 39)]

/-- src/parsers/python.rl:78-80
```
  python_dq_str =
    '"' ([^"] | '"' [^"] @{ fhold; }) @{ fhold; } # make sure it's not """
      ([^\r\n\f"\\] | '\\' nonnewline)* '"';
``` -/
def python_dq_str : Rx := .seqs [.cls (Cls.chr 34), .fin (.alts [.cls (Cls.neg (Cls.chr 34)), .seqs [.cls (Cls.chr 34), .fin (.cls (Cls.neg (Cls.chr 34))) (.fhold 2)]]) (.fhold 3), .star (.alts [.cls (Cls.neg (Cls.ranges [(10, 10), (12, 13), (34, 34), (92, 92)])), .seqs [.cls (Cls.chr 92), .cls (Common.nonnewline)]]), .cls (Cls.chr 34)]

/-- src/parsers/python.rl:81
```
  python_string = (python_sq_str | python_dq_str) @code;
``` -/
def python_string : Rx := .fin (.alts [python_sq_str, python_dq_str]) .code

/-- src/parsers/python.rl:83-89 with the cases of its callback (src/parsers/python.rl:31-45).
```
  python_line := |*
    spaces          ${ entity = PYTHON_SPACE; } => python_ccallback;
    python_comment;
    python_string;
    newline         ${ entity = NEWLINE;      } => python_ccallback;
    ^space          ${ entity = PYTHON_ANY;   } => python_ccallback;
  *|;
``` -/
def python_line : Scanner where
  pats := [
  (.all (Common.spaces) (.setEnt (.own 0)), .cb),
  (python_comment, .none),
  (python_string, .none),
  (.all (Common.newline) (.setEnt .newline), .cb),
  (.all (.cls (Cls.neg (Common.space))) (.setEnt (.own 3)), .cb)]
  sw := [((.own 0), .ls), ((.own 3), .code), (.internalNl, .internalNewline), (.newline, .newline)]

/-- src/parsers/python.rl:98
```
  python_line_comment_entity = ('#' | '//') nonnewline*;
``` -/
def python_line_comment_entity : Rx := .seqs [.alts [.cls (Cls.chr 35), .lit [47, 47]], .star (.cls (Common.nonnewline))]

/-- src/parsers/python.rl:99
```
  python_block_comment_entity = '/*' any* :>> '*/';
``` -/
def python_block_comment_entity : Rx := .guard (.seqs [.lit [47, 42], .star (.cls (Cls.any))]) (.lit [42, 47])

/-- src/parsers/python.rl:100
```
  python_sq_doc_str_entity = '\'\'\'' any* :>> '\'\'\'';
``` -/
def python_sq_doc_str_entity : Rx := .guard (.seqs [.lit [39, 39, 39], .star (.cls (Cls.any))]) (.lit [39, 39, 39])

/-- src/parsers/python.rl:101
```
  python_dq_doc_str_entity = '"""' any* :>> '"""';
``` -/
def python_dq_doc_str_entity : Rx := .guard (.seqs [.lit [34, 34, 34], .star (.cls (Cls.any))]) (.lit [34, 34, 34])

/-- src/parsers/python.rl:102-104
```
  python_comment_entity = python_line_comment_entity |
    python_block_comment_entity | python_sq_doc_str_entity |
    python_dq_doc_str_entity;
``` -/
def python_comment_entity : Rx := .alts [python_line_comment_entity, python_block_comment_entity, python_sq_doc_str_entity, python_dq_doc_str_entity]

/-- src/parsers/python.rl:106-111.
```
  python_entity := |*
    space+                ${ entity = PYTHON_SPACE;   } => python_ecallback;
    python_comment_entity ${ entity = PYTHON_COMMENT; } => python_ecallback;
    # TODO:
    ^space;
  *|;
``` -/
def python_entity : Scanner where
  pats := [
  (.all (.plus (.cls (Common.space))) (.setEnt (.own 0)), .ecb),
  (.all (python_comment_entity) (.setEnt (.own 1)), .ecb),
  (.cls (Cls.neg (Common.space)), .none)]
  sw := []

end Ohcount.Gram.Python

namespace Ohcount.Gram.R
open Ohcount.Ragel

/-- src/parsers/r.rl:47
```
  r_line_comment = ( '#') @comment nonnewline*;
``` -/
def r_line_comment : Rx := .seqs [.fin (.cls (Cls.chr 35)) .comment, .star (.cls (Common.nonnewline))]

/-- src/parsers/r.rl:48
```
  r_comment = r_line_comment;
``` -/
def r_comment : Rx := r_line_comment

/-- src/parsers/r.rl:50
```
  r_sq_str = '\'' @code ([^\r\n\f'\\] | '\\' nonnewline)* '\'';
``` -/
def r_sq_str : Rx := .seqs [.fin (.cls (Cls.chr 39)) .code, .star (.alts [.cls (Cls.neg (Cls.ranges [(10, 10), (12, 13), (39, 39), (92, 92)])), .seqs [.cls (Cls.chr 92), .cls (Common.nonnewline)]]), .cls (Cls.chr 39)]

/-- src/parsers/r.rl:51
```
  r_dq_str = '"' @code ([^\r\n\f"\\] | '\\' nonnewline)* '"';
``` -/
def r_dq_str : Rx := .seqs [.fin (.cls (Cls.chr 34)) .code, .star (.alts [.cls (Cls.neg (Cls.ranges [(10, 10), (12, 13), (34, 34), (92, 92)])), .seqs [.cls (Cls.chr 92), .cls (Common.nonnewline)]]), .cls (Cls.chr 34)]

/-- src/parsers/r.rl:52
```
  r_string = r_sq_str | r_dq_str;
``` -/
def r_string : Rx := .alts [r_sq_str, r_dq_str]

/-- src/parsers/r.rl:54-60 with the cases of its callback (src/parsers/r.rl:31-45).
```
  r_line := |*
    spaces          ${ entity = R_SPACE; } => r_ccallback;
    r_comment;
    r_string;
    newline         ${ entity = NEWLINE;      } => r_ccallback;
    ^space          ${ entity = R_ANY;   } => r_ccallback;
  *|;
``` -/
def r_line : Scanner where
  pats := [
  (.all (Common.spaces) (.setEnt (.own 0)), .cb),
  (r_comment, .none),
  (r_string, .none),
  (.all (Common.newline) (.setEnt .newline), .cb),
  (.all (.cls (Cls.neg (Common.space))) (.setEnt (.own 3)), .cb)]
  sw := [((.own 0), .ls), ((.own 3), .code), (.internalNl, .internalNewline), (.newline, .newline)]

/-- src/parsers/r.rl:68
```
  r_line_comment_entity = ('#') nonnewline*;
``` -/
def r_line_comment_entity : Rx := .seqs [.cls (Cls.chr 35), .star (.cls (Common.nonnewline))]

/-- src/parsers/r.rl:69
```
  r_comment_entity = r_line_comment_entity;
``` -/
def r_comment_entity : Rx := r_line_comment_entity

/-- src/parsers/r.rl:71-76.
```
  r_entity := |*
    space+                ${ entity = R_SPACE;   } => r_ecallback;
    r_comment_entity ${ entity = R_COMMENT; } => r_ecallback;
    # TODO:
    ^space;
  *|;
``` -/
def r_entity : Scanner where
  pats := [
  (.all (.plus (.cls (Common.space))) (.setEnt (.own 0)), .ecb),
  (.all (r_comment_entity) (.setEnt (.own 1)), .ecb),
  (.cls (Cls.neg (Common.space)), .none)]
  sw := []

end Ohcount.Gram.R

namespace Ohcount.Gram.Rebol
open Ohcount.Ragel

/-- src/parsers/rebol.rl:54
```
  rebol_line_comment = ';' @comment nonnewline*;
``` -/
def rebol_line_comment : Rx := .seqs [.fin (.cls (Cls.chr 59)) .comment, .star (.cls (Common.nonnewline))]

/-- src/parsers/rebol.rl:55
```
  rebol_comment = rebol_line_comment;
``` -/
def rebol_comment : Rx := rebol_line_comment

/-- src/parsers/rebol.rl:57
```
  rebol_dq_str = '"' @code ([^\r\n\f"] | '^"')* [\r\n\f"];
``` -/
def rebol_dq_str : Rx := .seqs [.fin (.cls (Cls.chr 34)) .code, .star (.alts [.cls (Cls.neg (Cls.ranges [(10, 10), (12, 13), (34, 34)])), .lit [94, 34]]), .cls (Cls.ranges [(10, 10), (12, 13), (34, 34)])]

/-- src/parsers/rebol.rl:33-34
```
  rebol_cb_str_nest = '{'                       %rebol_inc_string
                    | '}' when rebol_is_nested  %rebol_dec_string;
``` -/
def rebol_cb_str_nest : Rx := .alts [.leave (.cls (Cls.chr 123)) .nestInc, .leave (.cond (.cls (Cls.chr 125)) .nested) .nestDec]

/-- src/parsers/rebol.rl:58-60
```
  rebol_cb_str_inner = [^{}] | '^{' | '^}'
                     | newline %{ entity = INTERNAL_NL; } %rebol_ccallback
                     | rebol_cb_str_nest;
``` -/
def rebol_cb_str_inner : Rx := .alts [.cls (Cls.neg (Cls.chars [123, 125])), .lit [94, 123], .lit [94, 125], .leave (.leave (Common.newline) (.setEnt .internalNl)) .cb, rebol_cb_str_nest]

/-- src/parsers/rebol.rl:61
```
  rebol_cb_str = '{' @code rebol_cb_str_inner* @code '}' @code;
``` -/
def rebol_cb_str : Rx := .seqs [.fin (.cls (Cls.chr 123)) .code, .fin (.star (rebol_cb_str_inner)) .code, .fin (.cls (Cls.chr 125)) .code]

/-- src/parsers/rebol.rl:62
```
  rebol_string = rebol_dq_str | rebol_cb_str;
``` -/
def rebol_string : Rx := .alts [rebol_dq_str, rebol_cb_str]

/-- src/parsers/rebol.rl:64-70 with the cases of its callback (src/parsers/rebol.rl:38-52).
```
  rebol_line := |*
    spaces                  ${ entity = REBOL_SPACE; }      => rebol_ccallback;
    rebol_comment;
    rebol_string;
    newline                 ${ entity = NEWLINE; }          => rebol_ccallback;
    ^space                  ${ entity = REBOL_ANY; }        => rebol_ccallback;
  *|;
``` -/
def rebol_line : Scanner where
  pats := [
  (.all (Common.spaces) (.setEnt (.own 0)), .cb),
  (rebol_comment, .none),
  (rebol_string, .none),
  (.all (Common.newline) (.setEnt .newline), .cb),
  (.all (.cls (Cls.neg (Common.space))) (.setEnt (.own 3)), .cb)]
  sw := [((.own 0), .ls), ((.own 3), .code), (.internalNl, .internalNewline), (.newline, .newline)]

/-- src/parsers/rebol.rl:78
```
  rebol_line_comment_entity = ';' nonnewline*;
``` -/
def rebol_line_comment_entity : Rx := .seqs [.cls (Cls.chr 59), .star (.cls (Common.nonnewline))]

/-- src/parsers/rebol.rl:79
```
  rebol_comment_entity = rebol_line_comment_entity;
``` -/
def rebol_comment_entity : Rx := rebol_line_comment_entity

/-- src/parsers/rebol.rl:81
```
  rebol_dq_str_entity = '"' ([^\r\n\f"] | '^"')* [\r\n\f"];
``` -/
def rebol_dq_str_entity : Rx := .seqs [.cls (Cls.chr 34), .star (.alts [.cls (Cls.neg (Cls.ranges [(10, 10), (12, 13), (34, 34)])), .lit [94, 34]]), .cls (Cls.ranges [(10, 10), (12, 13), (34, 34)])]

/-- src/parsers/rebol.rl:82
```
  rebol_cb_str_entity = '{' ([^{}] | '^{' | '^}' | rebol_cb_str_nest)* '}';
``` -/
def rebol_cb_str_entity : Rx := .seqs [.cls (Cls.chr 123), .star (.alts [.cls (Cls.neg (Cls.chars [123, 125])), .lit [94, 123], .lit [94, 125], rebol_cb_str_nest]), .cls (Cls.chr 125)]

/-- src/parsers/rebol.rl:83
```
  rebol_string_entiy = rebol_dq_str_entity | rebol_cb_str_entity;
``` -/
def rebol_string_entiy : Rx := .alts [rebol_dq_str_entity, rebol_cb_str_entity]

/-- src/parsers/rebol.rl:85-90.
```
  rebol_entity := |*
    space+                  ${ entity = REBOL_SPACE; }      => rebol_ecallback;
    rebol_comment_entity    ${ entity = REBOL_COMMENT; }    => rebol_ecallback;
    rebol_string_entiy      ${ entity = REBOL_STRING; }     => rebol_ecallback;
    ^space                  ${ entity = REBOL_ANY; }        => rebol_ecallback;
  *|;
``` -/
def rebol_entity : Scanner where
  pats := [
  (.all (.plus (.cls (Common.space))) (.setEnt (.own 0)), .ecb),
  (.all (rebol_comment_entity) (.setEnt (.own 1)), .ecb),
  (.all (rebol_string_entiy) (.setEnt (.own 2)), .ecb),
  (.all (.cls (Cls.neg (Common.space))) (.setEnt (.own 3)), .ecb)]
  sw := []

end Ohcount.Gram.Rebol

namespace Ohcount.Gram.Rexx
open Ohcount.Ragel

/-- src/parsers/rexx.rl:51-62
```
  rexx_comment =
    '/*' >rexx_comment_nc_res @comment (
      newline %{ entity = INTERNAL_NL; } %rexx_ccallback
      |
      ws
      |
      '/*' @rexx_comment_nc_inc @comment
      |
      '*/' @rexx_comment_nc_dec @comment
      |
      ^space @comment
    )* :>> ('*/' when { nest_count == 0 }) @comment;
``` -/
def rexx_comment : Rx := .guard (.seqs [.fin (.ent (.lit [47, 42]) .nestRes) .comment, .star (.alts [.leave (.leave (Common.newline) (.setEnt .internalNl)) .cb, .cls (Common.ws), .fin (.fin (.lit [47, 42]) .nestInc) .comment, .fin (.fin (.lit [42, 47]) .nestDec) .comment, .fin (.cls (Cls.neg (Common.space))) .comment])]) (.fin (.cond (.lit [42, 47]) .nestZero) .comment)

/-- src/parsers/rexx.rl:64
```
  rexx_sq_str = '\'' @code ([^\r\n\f'\\] | '\\' nonnewline)* '\'';
``` -/
def rexx_sq_str : Rx := .seqs [.fin (.cls (Cls.chr 39)) .code, .star (.alts [.cls (Cls.neg (Cls.ranges [(10, 10), (12, 13), (39, 39), (92, 92)])), .seqs [.cls (Cls.chr 92), .cls (Common.nonnewline)]]), .cls (Cls.chr 39)]

/-- src/parsers/rexx.rl:65
```
  rexx_dq_str = '"' @code ([^\r\n\f"\\] | '\\' nonnewline)* '"';
``` -/
def rexx_dq_str : Rx := .seqs [.fin (.cls (Cls.chr 34)) .code, .star (.alts [.cls (Cls.neg (Cls.ranges [(10, 10), (12, 13), (34, 34), (92, 92)])), .seqs [.cls (Cls.chr 92), .cls (Common.nonnewline)]]), .cls (Cls.chr 34)]

/-- src/parsers/rexx.rl:66
```
  rexx_string = rexx_sq_str | rexx_dq_str;
``` -/
def rexx_string : Rx := .alts [rexx_sq_str, rexx_dq_str]

/-- src/parsers/rexx.rl:68-74 with the cases of its callback (src/parsers/rexx.rl:31-45).
```
  rexx_line := |*
    spaces        ${ entity = REXX_SPACE; } => rexx_ccallback;
    rexx_comment;
    rexx_string;
    newline       ${ entity = NEWLINE;    } => rexx_ccallback;
    ^space        ${ entity = REXX_ANY;   } => rexx_ccallback;
  *|;
``` -/
def rexx_line : Scanner where
  pats := [
  (.all (Common.spaces) (.setEnt (.own 0)), .cb),
  (rexx_comment, .none),
  (rexx_string, .none),
  (.all (Common.newline) (.setEnt .newline), .cb),
  (.all (.cls (Cls.neg (Common.space))) (.setEnt (.own 3)), .cb)]
  sw := [((.own 0), .ls), ((.own 3), .code), (.internalNl, .internalNewline), (.newline, .newline)]

/-- src/parsers/rexx.rl:82-88
```
  rexx_comment_entity = '/*' >rexx_comment_nc_res (
    '/*' @rexx_comment_nc_inc
    |
    '*/' @rexx_comment_nc_dec
    |
    any
  )* :>> ('*/' when { nest_count == 0 });
``` -/
def rexx_comment_entity : Rx := .guard (.seqs [.ent (.lit [47, 42]) .nestRes, .star (.alts [.fin (.lit [47, 42]) .nestInc, .fin (.lit [42, 47]) .nestDec, .cls (Cls.any)])]) (.cond (.lit [42, 47]) .nestZero)

/-- src/parsers/rexx.rl:90-95.
```
  rexx_entity := |*
    space+              ${ entity = REXX_SPACE;   } => rexx_ecallback;
    rexx_comment_entity ${ entity = REXX_COMMENT; } => rexx_ecallback;
    # TODO:
    ^space;
  *|;
``` -/
def rexx_entity : Scanner where
  pats := [
  (.all (.plus (.cls (Common.space))) (.setEnt (.own 0)), .ecb),
  (.all (rexx_comment_entity) (.setEnt (.own 1)), .ecb),
  (.cls (Cls.neg (Common.space)), .none)]
  sw := []

end Ohcount.Gram.Rexx

namespace Ohcount.Gram.Ruby
open Ohcount.Ragel

/-- src/parsers/ruby.rl:47
```
  ruby_line_comment = '#' @comment nonnewline*;
``` -/
def ruby_line_comment : Rx := .seqs [.fin (.cls (Cls.chr 35)) .comment, .star (.cls (Common.nonnewline))]

/-- src/parsers/ruby.rl:50-57
```
  ruby_block_comment =
    '=begin' @enqueue @comment (
      newline %{ entity = INTERNAL_NL; } %ruby_ccallback
      |
      ws
      |
      (nonnewline - ws) @comment
    )* :>> '=end' @commit;
``` -/
def ruby_block_comment : Rx := .guard (.seqs [.fin (.fin (.lit [61, 98, 101, 103, 105, 110]) .enqueue) .comment, .star (.alts [.leave (.leave (Common.newline) (.setEnt .internalNl)) .cb, .cls (Common.ws), .fin (.cls (Cls.diff (Common.nonnewline) (Common.ws))) .comment])]) (.fin (.lit [61, 101, 110, 100]) .commit)

/-- src/parsers/ruby.rl:58
```
  ruby_comment = ruby_line_comment | ruby_block_comment;
``` -/
def ruby_comment : Rx := .alts [ruby_line_comment, ruby_block_comment]

/-- src/parsers/ruby.rl:60-69
```
  ruby_sq_str =
    '\'' @enqueue @code (
      newline %{ entity = INTERNAL_NL; } %ruby_ccallback
      |
      ws
      |
      [^\r\n\f\t '\\] @code
      |
      '\\' nonnewline @code
    )* '\'' @commit @code;
``` -/
def ruby_sq_str : Rx := .seqs [.fin (.fin (.cls (Cls.chr 39)) .enqueue) .code, .star (.alts [.leave (.leave (Common.newline) (.setEnt .internalNl)) .cb, .cls (Common.ws), .fin (.cls (Cls.neg (Cls.ranges [(9, 10), (12, 13), (32, 32), (39, 39), (92, 92)]))) .code, .seqs [.cls (Cls.chr 92), .fin (.cls (Common.nonnewline)) .code]]), .fin (.fin (.cls (Cls.chr 39)) .commit) .code]

/-- src/parsers/ruby.rl:70-79
```
  ruby_dq_str =
    '"' @enqueue @code (
      newline %{ entity = INTERNAL_NL; } %ruby_ccallback
      |
      ws
      |
      [^\r\n\f\t "\\] @code
      |
      '\\' nonnewline @code
    )* '"' @commit @code;
``` -/
def ruby_dq_str : Rx := .seqs [.fin (.fin (.cls (Cls.chr 34)) .enqueue) .code, .star (.alts [.leave (.leave (Common.newline) (.setEnt .internalNl)) .cb, .cls (Common.ws), .fin (.cls (Cls.neg (Cls.ranges [(9, 10), (12, 13), (32, 32), (34, 34), (92, 92)]))) .code, .seqs [.cls (Cls.chr 92), .fin (.cls (Common.nonnewline)) .code]]), .fin (.fin (.cls (Cls.chr 34)) .commit) .code]

/-- src/parsers/ruby.rl:89-98
```
  ruby_lit_str =
    '%' [qQ]? [(\[{] @enqueue @code (
      newline %{ entity = INTERNAL_NL; } %ruby_ccallback
      |
      ws
      |
      [^\r\n\f\t )\]}\\] @code
      |
      '\\' nonnewline @code
    )* [)\]}] @commit @code;
``` -/
def ruby_lit_str : Rx := .seqs [.cls (Cls.chr 37), .opt (.cls (Cls.chars [81, 113])), .fin (.fin (.cls (Cls.chars [40, 91, 123])) .enqueue) .code, .star (.alts [.leave (.leave (Common.newline) (.setEnt .internalNl)) .cb, .cls (Common.ws), .fin (.cls (Cls.neg (Cls.ranges [(9, 10), (12, 13), (32, 32), (41, 41), (92, 93), (125, 125)]))) .code, .seqs [.cls (Cls.chr 92), .fin (.cls (Common.nonnewline)) .code]]), .fin (.fin (.cls (Cls.chars [41, 93, 125])) .commit) .code]

/-- src/parsers/ruby.rl:99-108
```
  ruby_cmd_str =
    '`' @enqueue @code (
      newline %{ entity = INTERNAL_NL; } %ruby_ccallback
      |
      ws
      |
      [^\r\n\f\t `\\] @code
      |
      '\\' nonnewline @code
    )* '`' @commit @code;
``` -/
def ruby_cmd_str : Rx := .seqs [.fin (.fin (.cls (Cls.chr 96)) .enqueue) .code, .star (.alts [.leave (.leave (Common.newline) (.setEnt .internalNl)) .cb, .cls (Common.ws), .fin (.cls (Cls.neg (Cls.ranges [(9, 10), (12, 13), (32, 32), (92, 92), (96, 96)]))) .code, .seqs [.cls (Cls.chr 92), .fin (.cls (Common.nonnewline)) .code]]), .fin (.fin (.cls (Cls.chr 96)) .commit) .code]

/-- src/parsers/ruby.rl:109
```
  ruby_regex = '/' ([^\r\n\f/\\] | '\\' nonnewline)* '/' @code;
``` -/
def ruby_regex : Rx := .seqs [.cls (Cls.chr 47), .star (.alts [.cls (Cls.neg (Cls.ranges [(10, 10), (12, 13), (47, 47), (92, 92)])), .seqs [.cls (Cls.chr 92), .cls (Common.nonnewline)]]), .fin (.cls (Cls.chr 47)) .code]

/-- src/parsers/ruby.rl:112-121
```
  ruby_lit_other =
    '%' [wrx] [(\[{] @enqueue @code (
      newline %{ entity = INTERNAL_NL; } %ruby_ccallback
      |
      ws
      |
      [^\r\n\f\t )\]}\\] @code
      |
      '\\' nonnewline @code
    )* [)\]}] @commit @code;
``` -/
def ruby_lit_other : Rx := .seqs [.cls (Cls.chr 37), .cls (Cls.ranges [(114, 114), (119, 120)]), .fin (.fin (.cls (Cls.chars [40, 91, 123])) .enqueue) .code, .star (.alts [.leave (.leave (Common.newline) (.setEnt .internalNl)) .cb, .cls (Common.ws), .fin (.cls (Cls.neg (Cls.ranges [(9, 10), (12, 13), (32, 32), (41, 41), (92, 93), (125, 125)]))) .code, .seqs [.cls (Cls.chr 92), .fin (.cls (Common.nonnewline)) .code]]), .fin (.fin (.cls (Cls.chars [41, 93, 125])) .commit) .code]

/-- src/parsers/ruby.rl:126-128
```
  ruby_string =
    ruby_sq_str | ruby_dq_str | ruby_lit_str | ruby_cmd_str | ruby_regex |
    ruby_lit_other;
``` -/
def ruby_string : Rx := .alts [ruby_sq_str, ruby_dq_str, ruby_lit_str, ruby_cmd_str, ruby_regex, ruby_lit_other]

/-- src/parsers/ruby.rl:130-136 with the cases of its callback (src/parsers/ruby.rl:31-45).
```
  ruby_line := |*
    spaces        ${ entity = RUBY_SPACE; } => ruby_ccallback;
    ruby_comment;
    ruby_string;
    newline       ${ entity = NEWLINE;    } => ruby_ccallback;
    ^space        ${ entity = RUBY_ANY;   } => ruby_ccallback;
  *|;
``` -/
def ruby_line : Scanner where
  pats := [
  (.all (Common.spaces) (.setEnt (.own 0)), .cb),
  (ruby_comment, .none),
  (ruby_string, .none),
  (.all (Common.newline) (.setEnt .newline), .cb),
  (.all (.cls (Cls.neg (Common.space))) (.setEnt (.own 3)), .cb)]
  sw := [((.own 0), .ls), ((.own 3), .code), (.internalNl, .internalNewline), (.newline, .newline)]

/-- src/parsers/ruby.rl:144
```
  ruby_line_comment_entity = '#' nonnewline*;
``` -/
def ruby_line_comment_entity : Rx := .seqs [.cls (Cls.chr 35), .star (.cls (Common.nonnewline))]

/-- src/parsers/ruby.rl:145-146
```
  ruby_block_comment_entity = ('=' when starts_line) 'begin'
    any* :>> (('=' when starts_line) 'end');
``` -/
def ruby_block_comment_entity : Rx := .guard (.seqs [.cond (.cls (Cls.chr 61)) .startsLine, .lit [98, 101, 103, 105, 110], .star (.cls (Cls.any))]) (.seqs [.cond (.cls (Cls.chr 61)) .startsLine, .lit [101, 110, 100]])

/-- src/parsers/ruby.rl:147
```
  ruby_comment_entity = ruby_line_comment_entity | ruby_block_comment_entity;
``` -/
def ruby_comment_entity : Rx := .alts [ruby_line_comment_entity, ruby_block_comment_entity]

/-- src/parsers/ruby.rl:149-154.
```
  ruby_entity := |*
    space+              ${ entity = RUBY_SPACE;   } => ruby_ecallback;
    ruby_comment_entity ${ entity = RUBY_COMMENT; } => ruby_ecallback;
    # TODO:
    ^space;
  *|;
``` -/
def ruby_entity : Scanner where
  pats := [
  (.all (.plus (.cls (Common.space))) (.setEnt (.own 0)), .ecb),
  (.all (ruby_comment_entity) (.setEnt (.own 1)), .ecb),
  (.cls (Cls.neg (Common.space)), .none)]
  sw := []

end Ohcount.Gram.Ruby

namespace Ohcount.Gram.Rust
open Ohcount.Ragel

/-- src/parsers/rust.rl:50-57
```
  rust_line_comment =
    '//' @comment (
      escaped_newline %{ entity = INTERNAL_NL; } %rust_ccallback
      |
      ws
      |
      (nonnewline - ws) @comment
    )*;
``` -/
def rust_line_comment : Rx := .seqs [.fin (.lit [47, 47]) .comment, .star (.alts [.leave (.leave (Common.escaped_newline) (.setEnt .internalNl)) .cb, .cls (Common.ws), .fin (.cls (Cls.diff (Common.nonnewline) (Common.ws))) .comment])]

/-- src/parsers/rust.rl:58-65
```
  rust_block_comment =
    '/*' @comment (
      newline %{ entity = INTERNAL_NL; } %rust_ccallback
      |
      ws
      |
      (nonnewline - ws) @comment
    )* :>> '*/';
``` -/
def rust_block_comment : Rx := .guard (.seqs [.fin (.lit [47, 42]) .comment, .star (.alts [.leave (.leave (Common.newline) (.setEnt .internalNl)) .cb, .cls (Common.ws), .fin (.cls (Cls.diff (Common.nonnewline) (Common.ws))) .comment])]) (.lit [42, 47])

/-- src/parsers/rust.rl:66
```
  rust_comment = rust_line_comment | rust_block_comment;
``` -/
def rust_comment : Rx := .alts [rust_line_comment, rust_block_comment]

/-- src/parsers/rust.rl:68-77
```
  rust_dq_str =
    '"' @code (
      escaped_newline %{ entity = INTERNAL_NL; } %rust_ccallback
      |
      ws
      |
      [^\t "\\] @code
      |
      '\\' nonnewline @code
    )* '"';
``` -/
def rust_dq_str : Rx := .seqs [.fin (.cls (Cls.chr 34)) .code, .star (.alts [.leave (.leave (Common.escaped_newline) (.setEnt .internalNl)) .cb, .cls (Common.ws), .fin (.cls (Cls.neg (Cls.chars [9, 32, 34, 92]))) .code, .seqs [.cls (Cls.chr 92), .fin (.cls (Common.nonnewline)) .code]]), .cls (Cls.chr 34)]

/-- src/parsers/rust.rl:78
```
  rust_string = rust_dq_str;
``` -/
def rust_string : Rx := rust_dq_str

/-- src/parsers/rust.rl:80-86 with the cases of its callback (src/parsers/rust.rl:34-48).
```
  rust_line := |*
    spaces    ${ entity = RUST_SPACE; } => rust_ccallback;
    rust_comment;
    rust_string;
    newline   ${ entity = NEWLINE; } => rust_ccallback;
    ^space    ${ entity = RUST_ANY;   } => rust_ccallback;
  *|;
``` -/
def rust_line : Scanner where
  pats := [
  (.all (Common.spaces) (.setEnt (.own 0)), .cb),
  (rust_comment, .none),
  (rust_string, .none),
  (.all (Common.newline) (.setEnt .newline), .cb),
  (.all (.cls (Cls.neg (Common.space))) (.setEnt (.own 7)), .cb)]
  sw := [((.own 0), .ls), ((.own 7), .code), (.internalNl, .internalNewline), (.newline, .newline)]

/-- src/parsers/rust.rl:94
```
  rust_line_comment_entity = '//' (escaped_newline | nonnewline)*;
``` -/
def rust_line_comment_entity : Rx := .seqs [.lit [47, 47], .star (.alts [Common.escaped_newline, .cls (Common.nonnewline)])]

/-- src/parsers/rust.rl:95
```
  rust_block_comment_entity = '/*' any* :>> '*/';
``` -/
def rust_block_comment_entity : Rx := .guard (.seqs [.lit [47, 42], .star (.cls (Cls.any))]) (.lit [42, 47])

/-- src/parsers/rust.rl:96
```
  rust_comment_entity = rust_line_comment_entity | rust_block_comment_entity;
``` -/
def rust_comment_entity : Rx := .alts [rust_line_comment_entity, rust_block_comment_entity]

/-- src/parsers/rust.rl:98
```
  rust_string_entity = dq_str_with_escapes;
``` -/
def rust_string_entity : Rx := Common.dq_str_with_escapes

/-- src/parsers/rust.rl:102
```
  rust_int_suffix = [iu] ('8' | '16' | '32' | '64')?;
``` -/
def rust_int_suffix : Rx := .seqs [.cls (Cls.chars [105, 117]), .opt (.alts [.cls (Cls.chr 56), .lit [49, 54], .lit [51, 50], .lit [54, 52]])]

/-- src/parsers/rust.rl:105
```
  rust_dec_lit = [0-9_]+;
``` -/
def rust_dec_lit : Rx := .plus (.cls (Cls.ranges [(48, 57), (95, 95)]))

/-- src/parsers/rust.rl:106
```
  rust_exponent = [Ee] [\-+]? rust_dec_lit;
``` -/
def rust_exponent : Rx := .seqs [.cls (Cls.chars [69, 101]), .opt (.cls (Cls.chars [43, 45])), rust_dec_lit]

/-- src/parsers/rust.rl:104
```
  rust_float_suffix_ty = 'f' ('32' | '64');
``` -/
def rust_float_suffix_ty : Rx := .seqs [.cls (Cls.chr 102), .alts [.lit [51, 50], .lit [54, 52]]]

/-- src/parsers/rust.rl:107-108
```
  rust_float_suffix = (rust_exponent | '.' rust_dec_lit rust_exponent?)?
                      rust_float_suffix_ty?;
``` -/
def rust_float_suffix : Rx := .seqs [.opt (.alts [rust_exponent, .seqs [.cls (Cls.chr 46), rust_dec_lit, .opt (rust_exponent)]]), .opt (rust_float_suffix_ty)]

/-- src/parsers/rust.rl:110
```
  rust_num_suffix = rust_int_suffix | rust_float_suffix;
``` -/
def rust_num_suffix : Rx := .alts [rust_int_suffix, rust_float_suffix]

/-- src/parsers/rust.rl:112-116
```
  rust_number_entity = [1-9]     [0-9_]*       rust_num_suffix?
                     | '0' (     [0-9_]*       rust_num_suffix?
                           | 'b' [01_]+        rust_int_suffix?
                           | 'o' [0-7_]+       rust_int_suffix?
                           | 'x' [0-9A-Fa-f_]+ rust_int_suffix?);
``` -/
def rust_number_entity : Rx := .alts [.seqs [.cls (Cls.ranges [(49, 57)]), .star (.cls (Cls.ranges [(48, 57), (95, 95)])), .opt (rust_num_suffix)], .seqs [.cls (Cls.chr 48), .alts [.seqs [.star (.cls (Cls.ranges [(48, 57), (95, 95)])), .opt (rust_num_suffix)], .seqs [.cls (Cls.chr 98), .plus (.cls (Cls.ranges [(48, 49), (95, 95)])), .opt (rust_int_suffix)], .seqs [.cls (Cls.chr 111), .plus (.cls (Cls.ranges [(48, 55), (95, 95)])), .opt (rust_int_suffix)], .seqs [.cls (Cls.chr 120), .plus (.cls (Cls.ranges [(48, 57), (65, 70), (95, 95), (97, 102)])), .opt (rust_int_suffix)]]]]

/-- src/parsers/rust.rl:118
```
  rust_identifier_entity = (alpha | '_') (alnum | '_')*;
``` -/
def rust_identifier_entity : Rx := .seqs [.cls (Cls.union (Common.alpha) (Cls.chr 95)), .star (.cls (Cls.union (Common.alnum) (Cls.chr 95)))]

/-- src/parsers/rust.rl:120-126
```
  rust_keyword_entity =
    'alignof' | 'as' | 'be' | 'break' | 'const' | 'continue' | 'do' | 'else' |
    'enum' | 'extern' | 'false' | 'fn' | 'for' | 'if' | 'impl' | 'impl' |
    'in' | 'let' | 'let' | 'log' | 'log' | 'loop' | 'match' | 'mod' | 'mod' |
    'mut' | 'offsetof' | 'once' | 'priv' | 'pub' | 'pure' | 'ref' | 'return' |
    'self' | 'sizeof' | 'static' | 'struct' | 'super' | 'trait' | 'true' |
    'type' | 'typeof' | 'unsafe' | 'use' | 'while' | 'yield';
``` -/
def rust_keyword_entity : Rx := .alts [.lit [97, 108, 105, 103, 110, 111, 102], .lit [97, 115], .lit [98, 101], .lit [98, 114, 101, 97, 107], .lit [99, 111, 110, 115, 116], .lit [99, 111, 110, 116, 105, 110, 117, 101], .lit [100, 111], .lit [101, 108, 115, 101], .lit [101, 110, 117, 109], .lit [101, 120, 116, 101, 114, 110], .lit [102, 97, 108, 115, 101], .lit [102, 110], .lit [102, 111, 114], .lit [105, 102], .lit [105, 109, 112, 108], .lit [105, 109, 112, 108], .lit [105, 110], .lit [108, 101, 116], .lit [108, 101, 116], .lit [108, 111, 103], .lit [108, 111, 103], .lit [108, 111, 111, 112], .lit [109, 97, 116, 99, 104], .lit [109, 111, 100], .lit [109, 111, 100], .lit [109, 117, 116], .lit [111, 102, 102, 115, 101, 116, 111, 102], .lit [111, 110, 99, 101], .lit [112, 114, 105, 118], .lit [112, 117, 98], .lit [112, 117, 114, 101], .lit [114, 101, 102], .lit [114, 101, 116, 117, 114, 110], .lit [115, 101, 108, 102], .lit [115, 105, 122, 101, 111, 102], .lit [115, 116, 97, 116, 105, 99], .lit [115, 116, 114, 117, 99, 116], .lit [115, 117, 112, 101, 114], .lit [116, 114, 97, 105, 116], .lit [116, 114, 117, 101], .lit [116, 121, 112, 101], .lit [116, 121, 112, 101, 111, 102], .lit [117, 110, 115, 97, 102, 101], .lit [117, 115, 101], .lit [119, 104, 105, 108, 101], .lit [121, 105, 101, 108, 100]]

/-- src/parsers/rust.rl:128
```
  rust_operator_entity = [+\- /*%<>!=^&|?~:;.,()\[\]{}@];
``` -/
def rust_operator_entity : Cls := Cls.ranges [(33, 33), (37, 38), (40, 47), (58, 64), (91, 91), (93, 94), (123, 126)]

/-- src/parsers/rust.rl:130-139.
```
  rust_entity := |*
    space+                 ${ entity = RUST_SPACE;      } => rust_ecallback;
    rust_comment_entity    ${ entity = RUST_COMMENT;    } => rust_ecallback;
    rust_string_entity     ${ entity = RUST_STRING;     } => rust_ecallback;
    rust_number_entity     ${ entity = RUST_NUMBER;     } => rust_ecallback;
    rust_identifier_entity ${ entity = RUST_IDENTIFIER; } => rust_ecallback;
    rust_keyword_entity    ${ entity = RUST_KEYWORD;    } => rust_ecallback;
    rust_operator_entity   ${ entity = RUST_OPERATOR;   } => rust_ecallback;
    ^(space | digit)       ${ entity = RUST_ANY;        } => rust_ecallback;
  *|;
``` -/
def rust_entity : Scanner where
  pats := [
  (.all (.plus (.cls (Common.space))) (.setEnt (.own 0)), .ecb),
  (.all (rust_comment_entity) (.setEnt (.own 1)), .ecb),
  (.all (rust_string_entity) (.setEnt (.own 2)), .ecb),
  (.all (rust_number_entity) (.setEnt (.own 3)), .ecb),
  (.all (rust_identifier_entity) (.setEnt (.own 5)), .ecb),
  (.all (rust_keyword_entity) (.setEnt (.own 4)), .ecb),
  (.all (.cls (rust_operator_entity)) (.setEnt (.own 6)), .ecb),
  (.all (.cls (Cls.neg (Cls.union (Common.space) (Common.digit)))) (.setEnt (.own 7)), .ecb)]
  sw := []

end Ohcount.Gram.Rust

