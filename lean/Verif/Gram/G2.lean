import Verif.Gram.Common

/-! Scanners transcribed from src/parsers/: bfpp.rl, blitzmax.rl, boo.rl, brainfuck.rl, c.rl, chaiscript.rl, classic_basic.rl, clearsilver.rl, cmake.rl. Generated by tools/gen_grammars.py. -/

namespace Ohcount.Gram.Bfpp
open Ohcount.Ragel

/-- src/parsers/bfpp.rl:53
```
  bfpp_line_comment = ('=') @comment nonnewline*;
``` -/
def bfpp_line_comment : Rx := .seqs [.fin (.cls (Cls.chr 61)) .comment, .star (.cls (Common.nonnewline))]

/-- src/parsers/bfpp.rl:55-61
```
  bfpp_include = '@include(' @code (
      newline %{ entity = INTERNAL_NL; } %bfpp_ccallback
      |
      ws
      |
      (nonnewline - ws) @code
    )* :>> ')';
``` -/
def bfpp_include : Rx := .guard (.seqs [.fin (.lit [64, 105, 110, 99, 108, 117, 100, 101, 40]) .code, .star (.alts [.leave (.leave (Common.newline) (.setEnt .internalNl)) .cb, .cls (Common.ws), .fin (.cls (Cls.diff (Common.nonnewline) (Common.ws))) .code])]) (.cls (Cls.chr 41))

/-- src/parsers/bfpp.rl:51
```
  bfpp_operator = [+\-<>.,\[\]\%\!\#\^\:\;] @code;
``` -/
def bfpp_operator : Rx := .fin (.cls (Cls.ranges [(33, 33), (35, 35), (37, 37), (43, 46), (58, 60), (62, 62), (91, 91), (93, 94)])) .code

/-- src/parsers/bfpp.rl:63-70 with the cases of its callback (src/parsers/bfpp.rl:31-49).
```
  bfpp_line := |*
    spaces             ${ entity = BFPP_SPACE;    } => bfpp_ccallback;
    newline            ${ entity = NEWLINE;       } => bfpp_ccallback;
    bfpp_line_comment;
    bfpp_include;
    bfpp_operator      ${ entity = BFPP_OPERATOR; } => bfpp_ccallback;
    ^space             ${ entity = BFPP_COMMENT;  } => bfpp_ccallback;
  *|;
``` -/
def bfpp_line : Scanner where
  pats := [
  (.all (Common.spaces) (.setEnt (.own 0)), .cb),
  (.all (Common.newline) (.setEnt .newline), .cb),
  (bfpp_line_comment, .none),
  (bfpp_include, .none),
  (.all (bfpp_operator) (.setEnt (.own 2)), .cb),
  (.all (.cls (Cls.neg (Common.space))) (.setEnt (.own 1)), .cb)]
  sw := [((.own 0), .ls), ((.own 2), .code), ((.own 3), .code), ((.own 1), .comment), (.internalNl, .internalNewline), (.newline, .newline)]

end Ohcount.Gram.Bfpp

namespace Ohcount.Gram.Blitzmax
open Ohcount.Ragel

/-- src/parsers/blitzmax.rl:47
```
  blitzmax_line_comment = '\'' @comment nonnewline*;
``` -/
def blitzmax_line_comment : Rx := .seqs [.fin (.cls (Cls.chr 39)) .comment, .star (.cls (Common.nonnewline))]

/-- src/parsers/blitzmax.rl:48-55
```
  blitzmax_rem_block_comment =
    /rem/i @comment (
      newline %{ entity = INTERNAL_NL; } %blitzmax_ccallback
      |
      ws
      |
      (nonnewline - ws) @comment
    )* :>> (/end rem/i | /endrem/i);
``` -/
def blitzmax_rem_block_comment : Rx := .guard (.seqs [.fin (.seqs [.cls (Cls.chars [82, 114]), .cls (Cls.chars [69, 101]), .cls (Cls.chars [77, 109])]) .comment, .star (.alts [.leave (.leave (Common.newline) (.setEnt .internalNl)) .cb, .cls (Common.ws), .fin (.cls (Cls.diff (Common.nonnewline) (Common.ws))) .comment])]) (.alts [.seqs [.cls (Cls.chars [69, 101]), .cls (Cls.chars [78, 110]), .cls (Cls.chars [68, 100]), .cls (Cls.chr 32), .cls (Cls.chars [82, 114]), .cls (Cls.chars [69, 101]), .cls (Cls.chars [77, 109])], .seqs [.cls (Cls.chars [69, 101]), .cls (Cls.chars [78, 110]), .cls (Cls.chars [68, 100]), .cls (Cls.chars [82, 114]), .cls (Cls.chars [69, 101]), .cls (Cls.chars [77, 109])]])

/-- src/parsers/blitzmax.rl:57
```
  blitzmax_comment = blitzmax_line_comment | blitzmax_rem_block_comment;
``` -/
def blitzmax_comment : Rx := .alts [blitzmax_line_comment, blitzmax_rem_block_comment]

/-- src/parsers/blitzmax.rl:59
```
  blitzmax_string = '"' @code ([^\r\n\f"\\] | '\\' nonnewline)* '"';
``` -/
def blitzmax_string : Rx := .seqs [.fin (.cls (Cls.chr 34)) .code, .star (.alts [.cls (Cls.neg (Cls.ranges [(10, 10), (12, 13), (34, 34), (92, 92)])), .seqs [.cls (Cls.chr 92), .cls (Common.nonnewline)]]), .cls (Cls.chr 34)]

/-- src/parsers/blitzmax.rl:61-67 with the cases of its callback (src/parsers/blitzmax.rl:31-45).
```
  blitzmax_line := |*
    spaces          ${ entity = BLITZMAX_SPACE; } => blitzmax_ccallback;
    blitzmax_comment;
    blitzmax_string;
    newline         ${ entity = NEWLINE;      } => blitzmax_ccallback;
    ^space          ${ entity = BLITZMAX_ANY;   } => blitzmax_ccallback;
  *|;
``` -/
def blitzmax_line : Scanner where
  pats := [
  (.all (Common.spaces) (.setEnt (.own 0)), .cb),
  (blitzmax_comment, .none),
  (blitzmax_string, .none),
  (.all (Common.newline) (.setEnt .newline), .cb),
  (.all (.cls (Cls.neg (Common.space))) (.setEnt (.own 3)), .cb)]
  sw := [((.own 0), .ls), ((.own 3), .code), (.internalNl, .internalNewline), (.newline, .newline)]

/-- src/parsers/blitzmax.rl:76
```
  blitzmax_line_comment_entity = '\'' nonnewline*;
``` -/
def blitzmax_line_comment_entity : Rx := .seqs [.cls (Cls.chr 39), .star (.cls (Common.nonnewline))]

/-- src/parsers/blitzmax.rl:86
```
  blitzmax_comment_entity = blitzmax_line_comment_entity | blitzmax_line_comment_entity;
``` -/
def blitzmax_comment_entity : Rx := .alts [blitzmax_line_comment_entity, blitzmax_line_comment_entity]

/-- src/parsers/blitzmax.rl:88-93.
```
  blitzmax_entity := |*
    space+                ${ entity = BLITZMAX_SPACE;   } => blitzmax_ecallback;
    blitzmax_comment_entity ${ entity = BLITZMAX_COMMENT; } => blitzmax_ecallback;
    # TODO:
    ^space;
  *|;
``` -/
def blitzmax_entity : Scanner where
  pats := [
  (.all (.plus (.cls (Common.space))) (.setEnt (.own 0)), .ecb),
  (.all (blitzmax_comment_entity) (.setEnt (.own 1)), .ecb),
  (.cls (Cls.neg (Common.space)), .none)]
  sw := []

end Ohcount.Gram.Blitzmax

namespace Ohcount.Gram.Boo
open Ohcount.Ragel

/-- src/parsers/boo.rl:51
```
  boo_line_comment = ('#' | '//') @comment nonnewline*;
``` -/
def boo_line_comment : Rx := .seqs [.fin (.alts [.cls (Cls.chr 35), .lit [47, 47]]) .comment, .star (.cls (Common.nonnewline))]

/-- src/parsers/boo.rl:52-63
```
  boo_block_comment =
    '/*' >boo_comment_nc_res @comment (
      newline %{ entity = INTERNAL_NL; } %boo_ccallback
      |
      ws
      |
      '/*' @boo_comment_nc_inc @comment
      |
      '*/' @boo_comment_nc_dec @comment
      |
      ^space @comment
    )* :>> ('*/' when { nest_count == 0 }) @comment;
``` -/
def boo_block_comment : Rx := .guard (.seqs [.fin (.ent (.lit [47, 42]) .nestRes) .comment, .star (.alts [.leave (.leave (Common.newline) (.setEnt .internalNl)) .cb, .cls (Common.ws), .fin (.fin (.lit [47, 42]) .nestInc) .comment, .fin (.fin (.lit [42, 47]) .nestDec) .comment, .fin (.cls (Cls.neg (Common.space))) .comment])]) (.fin (.cond (.lit [42, 47]) .nestZero) .comment)

/-- src/parsers/boo.rl:64-71
```
  boo_doc_comment =
    '"""' @comment (
      newline %{ entity = INTERNAL_NL; } %boo_ccallback
      |
      ws
      |
      (nonnewline - ws) @comment
    )* :>> '"""' @comment;
``` -/
def boo_doc_comment : Rx := .guard (.seqs [.fin (.lit [34, 34, 34]) .comment, .star (.alts [.leave (.leave (Common.newline) (.setEnt .internalNl)) .cb, .cls (Common.ws), .fin (.cls (Cls.diff (Common.nonnewline) (Common.ws))) .comment])]) (.fin (.lit [34, 34, 34]) .comment)

/-- src/parsers/boo.rl:72
```
  boo_comment = boo_line_comment | boo_block_comment | boo_doc_comment;
``` -/
def boo_comment : Rx := .alts [boo_line_comment, boo_block_comment, boo_doc_comment]

/-- src/parsers/boo.rl:74
```
  boo_char = '\'' ([^\r\n\f'\\] | '\\' nonnewline) '\'';
``` -/
def boo_char : Rx := .seqs [.cls (Cls.chr 39), .alts [.cls (Cls.neg (Cls.ranges [(10, 10), (12, 13), (39, 39), (92, 92)])), .seqs [.cls (Cls.chr 92), .cls (Common.nonnewline)]], .cls (Cls.chr 39)]

/-- src/parsers/boo.rl:75-77
```
  boo_dq_str =
    '"' ([^"] | '"' [^"] @{ fhold; }) @{ fhold; } # make sure it's not """
      ([^\r\n\f"\\] | '\\' nonnewline)* '"';
``` -/
def boo_dq_str : Rx := .seqs [.cls (Cls.chr 34), .fin (.alts [.cls (Cls.neg (Cls.chr 34)), .seqs [.cls (Cls.chr 34), .fin (.cls (Cls.neg (Cls.chr 34))) (.fhold 0)]]) (.fhold 1), .star (.alts [.cls (Cls.neg (Cls.ranges [(10, 10), (12, 13), (34, 34), (92, 92)])), .seqs [.cls (Cls.chr 92), .cls (Common.nonnewline)]]), .cls (Cls.chr 34)]

/-- src/parsers/boo.rl:78
```
  boo_regex = '/' [^*/] @{ fhold; } ([^\r\n\f/\\] | '\\' nonnewline)* '/';
``` -/
def boo_regex : Rx := .seqs [.cls (Cls.chr 47), .fin (.cls (Cls.neg (Cls.chars [42, 47]))) (.fhold 2), .star (.alts [.cls (Cls.neg (Cls.ranges [(10, 10), (12, 13), (47, 47), (92, 92)])), .seqs [.cls (Cls.chr 92), .cls (Common.nonnewline)]]), .cls (Cls.chr 47)]

/-- src/parsers/boo.rl:79
```
  boo_string = (boo_char | boo_dq_str | boo_regex) @code;
``` -/
def boo_string : Rx := .fin (.alts [boo_char, boo_dq_str, boo_regex]) .code

/-- src/parsers/boo.rl:81-87 with the cases of its callback (src/parsers/boo.rl:31-45).
```
  boo_line := |*
    spaces       ${ entity = BOO_SPACE; } => boo_ccallback;
    boo_comment;
    boo_string;
    newline      ${ entity = NEWLINE;   } => boo_ccallback;
    ^space       ${ entity = BOO_ANY;   } => boo_ccallback;
  *|;
``` -/
def boo_line : Scanner where
  pats := [
  (.all (Common.spaces) (.setEnt (.own 0)), .cb),
  (boo_comment, .none),
  (boo_string, .none),
  (.all (Common.newline) (.setEnt .newline), .cb),
  (.all (.cls (Cls.neg (Common.space))) (.setEnt (.own 3)), .cb)]
  sw := [((.own 0), .ls), ((.own 3), .code), (.internalNl, .internalNewline), (.newline, .newline)]

/-- src/parsers/boo.rl:95
```
  boo_line_comment_entity = ('#' | '//') nonnewline*;
``` -/
def boo_line_comment_entity : Rx := .seqs [.alts [.cls (Cls.chr 35), .lit [47, 47]], .star (.cls (Common.nonnewline))]

/-- src/parsers/boo.rl:96-102
```
  boo_block_comment_entity = '/*' >boo_comment_nc_res (
    '/*' @boo_comment_nc_inc
    |
    '*/' @boo_comment_nc_dec
    |
    any
  )* :>> ('*/' when { nest_count == 0 });
``` -/
def boo_block_comment_entity : Rx := .guard (.seqs [.ent (.lit [47, 42]) .nestRes, .star (.alts [.fin (.lit [47, 42]) .nestInc, .fin (.lit [42, 47]) .nestDec, .cls (Cls.any)])]) (.cond (.lit [42, 47]) .nestZero)

/-- src/parsers/boo.rl:103
```
  boo_comment_entity = boo_line_comment_entity | boo_block_comment_entity;
``` -/
def boo_comment_entity : Rx := .alts [boo_line_comment_entity, boo_block_comment_entity]

/-- src/parsers/boo.rl:105-110.
```
  boo_entity := |*
    space+             ${ entity = BOO_SPACE;   } => boo_ecallback;
    boo_comment_entity ${ entity = BOO_COMMENT; } => boo_ecallback;
    # TODO:
    ^space;
  *|;
``` -/
def boo_entity : Scanner where
  pats := [
  (.all (.plus (.cls (Common.space))) (.setEnt (.own 0)), .ecb),
  (.all (boo_comment_entity) (.setEnt (.own 1)), .ecb),
  (.cls (Cls.neg (Common.space)), .none)]
  sw := []

end Ohcount.Gram.Boo

namespace Ohcount.Gram.Brainfuck
open Ohcount.Ragel

/-- src/parsers/brainfuck.rl:50
```
  brainfuck_operator = [+\-<>.,\[\]] @code;
``` -/
def brainfuck_operator : Rx := .fin (.cls (Cls.ranges [(43, 46), (60, 60), (62, 62), (91, 91), (93, 93)])) .code

/-- src/parsers/brainfuck.rl:52-57 with the cases of its callback (src/parsers/brainfuck.rl:31-48).
```
  brainfuck_line := |*
    spaces             ${ entity = BRAINFUCK_SPACE;    } => brainfuck_ccallback;
    newline            ${ entity = NEWLINE;            } => brainfuck_ccallback;
    brainfuck_operator ${ entity = BRAINFUCK_OPERATOR; } => brainfuck_ccallback;
    ^space             ${ entity = BRAINFUCK_COMMENT;  } => brainfuck_ccallback;
  *|;
``` -/
def brainfuck_line : Scanner where
  pats := [
  (.all (Common.spaces) (.setEnt (.own 0)), .cb),
  (.all (Common.newline) (.setEnt .newline), .cb),
  (.all (brainfuck_operator) (.setEnt (.own 2)), .cb),
  (.all (.cls (Cls.neg (Common.space))) (.setEnt (.own 1)), .cb)]
  sw := [((.own 0), .ls), ((.own 2), .code), ((.own 1), .comment), (.internalNl, .internalNewline), (.newline, .newline)]

end Ohcount.Gram.Brainfuck

namespace Ohcount.Gram.C
open Ohcount.Ragel

/-- src/parsers/c.rl:49-56
```
  c_line_comment =
    '//' @comment (
      escaped_newline %{ entity = INTERNAL_NL; } %c_ccallback
      |
      ws
      |
      (nonnewline - ws) @comment
    )*;
``` -/
def c_line_comment : Rx := .seqs [.fin (.lit [47, 47]) .comment, .star (.alts [.leave (.leave (Common.escaped_newline) (.setEnt .internalNl)) .cb, .cls (Common.ws), .fin (.cls (Cls.diff (Common.nonnewline) (Common.ws))) .comment])]

/-- src/parsers/c.rl:57-64
```
  c_block_comment =
    '/*' @comment (
      newline %{ entity = INTERNAL_NL; } %c_ccallback
      |
      ws
      |
      (nonnewline - ws) @comment
    )* :>> '*/';
``` -/
def c_block_comment : Rx := .guard (.seqs [.fin (.lit [47, 42]) .comment, .star (.alts [.leave (.leave (Common.newline) (.setEnt .internalNl)) .cb, .cls (Common.ws), .fin (.cls (Cls.diff (Common.nonnewline) (Common.ws))) .comment])]) (.lit [42, 47])

/-- src/parsers/c.rl:65
```
  c_comment = c_line_comment | c_block_comment;
``` -/
def c_comment : Rx := .alts [c_line_comment, c_block_comment]

/-- src/parsers/c.rl:67-76
```
  c_sq_str =
    '\'' @code (
      escaped_newline %{ entity = INTERNAL_NL; } %c_ccallback
      |
      ws
      |
      [^\t '\\] @code
      |
      '\\' nonnewline @code
    )* '\'';
``` -/
def c_sq_str : Rx := .seqs [.fin (.cls (Cls.chr 39)) .code, .star (.alts [.leave (.leave (Common.escaped_newline) (.setEnt .internalNl)) .cb, .cls (Common.ws), .fin (.cls (Cls.neg (Cls.chars [9, 32, 39, 92]))) .code, .seqs [.cls (Cls.chr 92), .fin (.cls (Common.nonnewline)) .code]]), .cls (Cls.chr 39)]

/-- src/parsers/c.rl:77-86
```
  c_dq_str =
    '"' @code (
      escaped_newline %{ entity = INTERNAL_NL; } %c_ccallback
      |
      ws
      |
      [^\t "\\] @code
      |
      '\\' nonnewline @code
    )* '"';
``` -/
def c_dq_str : Rx := .seqs [.fin (.cls (Cls.chr 34)) .code, .star (.alts [.leave (.leave (Common.escaped_newline) (.setEnt .internalNl)) .cb, .cls (Common.ws), .fin (.cls (Cls.neg (Cls.chars [9, 32, 34, 92]))) .code, .seqs [.cls (Cls.chr 92), .fin (.cls (Common.nonnewline)) .code]]), .cls (Cls.chr 34)]

/-- src/parsers/c.rl:87
```
  c_string = c_sq_str | c_dq_str;
``` -/
def c_string : Rx := .alts [c_sq_str, c_dq_str]

/-- src/parsers/c.rl:89-95 with the cases of its callback (src/parsers/c.rl:33-47).
```
  c_line := |*
    spaces    ${ entity = C_SPACE; } => c_ccallback;
    c_comment;
    c_string;
    newline   ${ entity = NEWLINE; } => c_ccallback;
    ^space    ${ entity = C_ANY;   } => c_ccallback;
  *|;
``` -/
def c_line : Scanner where
  pats := [
  (.all (Common.spaces) (.setEnt (.own 0)), .cb),
  (c_comment, .none),
  (c_string, .none),
  (.all (Common.newline) (.setEnt .newline), .cb),
  (.all (.cls (Cls.neg (Common.space))) (.setEnt (.own 8)), .cb)]
  sw := [((.own 0), .ls), ((.own 8), .code), (.internalNl, .internalNewline), (.newline, .newline)]

/-- src/parsers/c.rl:103
```
  c_line_comment_entity = '//' (escaped_newline | nonnewline)*;
``` -/
def c_line_comment_entity : Rx := .seqs [.lit [47, 47], .star (.alts [Common.escaped_newline, .cls (Common.nonnewline)])]

/-- src/parsers/c.rl:104
```
  c_block_comment_entity = '/*' any* :>> '*/';
``` -/
def c_block_comment_entity : Rx := .guard (.seqs [.lit [47, 42], .star (.cls (Cls.any))]) (.lit [42, 47])

/-- src/parsers/c.rl:105
```
  c_comment_entity = c_line_comment_entity | c_block_comment_entity;
``` -/
def c_comment_entity : Rx := .alts [c_line_comment_entity, c_block_comment_entity]

/-- src/parsers/c.rl:107
```
  c_string_entity = sq_str_with_escapes | dq_str_with_escapes;
``` -/
def c_string_entity : Rx := .alts [Common.sq_str_with_escapes, Common.dq_str_with_escapes]

/-- src/parsers/c.rl:109
```
  c_number_entity = float | integer;
``` -/
def c_number_entity : Rx := .alts [Common.float, Common.integer]

/-- src/parsers/c.rl:111-114
```
  c_preproc_word =
    'define' | 'elif' | 'else' | 'endif' | 'error' | 'if' | 'ifdef' |
    'ifndef' | 'import' | 'include' | 'line' | 'pragma' | 'undef' |
    'using' | 'warning';
``` -/
def c_preproc_word : Rx := .alts [.lit [100, 101, 102, 105, 110, 101], .lit [101, 108, 105, 102], .lit [101, 108, 115, 101], .lit [101, 110, 100, 105, 102], .lit [101, 114, 114, 111, 114], .lit [105, 102], .lit [105, 102, 100, 101, 102], .lit [105, 102, 110, 100, 101, 102], .lit [105, 109, 112, 111, 114, 116], .lit [105, 110, 99, 108, 117, 100, 101], .lit [108, 105, 110, 101], .lit [112, 114, 97, 103, 109, 97], .lit [117, 110, 100, 101, 102], .lit [117, 115, 105, 110, 103], .lit [119, 97, 114, 110, 105, 110, 103]]

/-- src/parsers/c.rl:117-119
```
  c_preproc_entity =
    '#' space* (c_block_comment_entity space*)?
      c_preproc_word (escaped_newline | nonnewline)*;
``` -/
def c_preproc_entity : Rx := .seqs [.cls (Cls.chr 35), .star (.cls (Common.space)), .opt (.seqs [c_block_comment_entity, .star (.cls (Common.space))]), c_preproc_word, .star (.alts [Common.escaped_newline, .cls (Common.nonnewline)])]

/-- src/parsers/c.rl:121
```
  c_identifier_entity = (alpha | '_') (alnum | '_')*;
``` -/
def c_identifier_entity : Rx := .seqs [.cls (Cls.union (Common.alpha) (Cls.chr 95)), .star (.cls (Cls.union (Common.alnum) (Cls.chr 95)))]

/-- src/parsers/c.rl:123-135
```
  c_keyword_entity =
    'and' | 'and_eq' | 'asm' | 'auto' | 'bitand' | 'bitor' | 'bool' |
    'break' | 'case' | 'catch' | 'char' | 'class' | 'compl' | 'const' |
    'const_cast' | 'continue' | 'default' | 'delete' | 'do' | 'double' |
    'dynamic_cast' | 'else' | 'enum' | 'explicit' | 'export' | 'extern' |
    'false' | 'float' | 'for' | 'friend' | 'goto' | 'if' | 'inline' | 'int' |
    'long' | 'mutable' | 'namespace' | 'new' | 'not' | 'not_eq' |
    'operator' | 'or' | 'or_eq' | 'private' | 'protected' | 'public' |
    'register' | 'reinterpret_cast' | 'return' | 'short' | 'signed' |
    'sizeof' | 'static' | 'static_cast' | 'struct' | 'switch' |
    'template' | 'this' | 'throw' | 'true' | 'try' | 'typedef' | 'typeid' |
    'typename' | 'union' | 'unsigned' | 'using' | 'virtual' | 'void' |
    'volatile' | 'wchar_t' | 'while' | 'xor' | 'xor_eq';
``` -/
def c_keyword_entity : Rx := .alts [.lit [97, 110, 100], .lit [97, 110, 100, 95, 101, 113], .lit [97, 115, 109], .lit [97, 117, 116, 111], .lit [98, 105, 116, 97, 110, 100], .lit [98, 105, 116, 111, 114], .lit [98, 111, 111, 108], .lit [98, 114, 101, 97, 107], .lit [99, 97, 115, 101], .lit [99, 97, 116, 99, 104], .lit [99, 104, 97, 114], .lit [99, 108, 97, 115, 115], .lit [99, 111, 109, 112, 108], .lit [99, 111, 110, 115, 116], .lit [99, 111, 110, 115, 116, 95, 99, 97, 115, 116], .lit [99, 111, 110, 116, 105, 110, 117, 101], .lit [100, 101, 102, 97, 117, 108, 116], .lit [100, 101, 108, 101, 116, 101], .lit [100, 111], .lit [100, 111, 117, 98, 108, 101], .lit [100, 121, 110, 97, 109, 105, 99, 95, 99, 97, 115, 116], .lit [101, 108, 115, 101], .lit [101, 110, 117, 109], .lit [101, 120, 112, 108, 105, 99, 105, 116], .lit [101, 120, 112, 111, 114, 116], .lit [101, 120, 116, 101, 114, 110], .lit [102, 97, 108, 115, 101], .lit [102, 108, 111, 97, 116], .lit [102, 111, 114], .lit [102, 114, 105, 101, 110, 100], .lit [103, 111, 116, 111], .lit [105, 102], .lit [105, 110, 108, 105, 110, 101], .lit [105, 110, 116], .lit [108, 111, 110, 103], .lit [109, 117, 116, 97, 98, 108, 101], .lit [110, 97, 109, 101, 115, 112, 97, 99, 101], .lit [110, 101, 119], .lit [110, 111, 116], .lit [110, 111, 116, 95, 101, 113], .lit [111, 112, 101, 114, 97, 116, 111, 114], .lit [111, 114], .lit [111, 114, 95, 101, 113], .lit [112, 114, 105, 118, 97, 116, 101], .lit [112, 114, 111, 116, 101, 99, 116, 101, 100], .lit [112, 117, 98, 108, 105, 99], .lit [114, 101, 103, 105, 115, 116, 101, 114], .lit [114, 101, 105, 110, 116, 101, 114, 112, 114, 101, 116, 95, 99, 97, 115, 116], .lit [114, 101, 116, 117, 114, 110], .lit [115, 104, 111, 114, 116], .lit [115, 105, 103, 110, 101, 100], .lit [115, 105, 122, 101, 111, 102], .lit [115, 116, 97, 116, 105, 99], .lit [115, 116, 97, 116, 105, 99, 95, 99, 97, 115, 116], .lit [115, 116, 114, 117, 99, 116], .lit [115, 119, 105, 116, 99, 104], .lit [116, 101, 109, 112, 108, 97, 116, 101], .lit [116, 104, 105, 115], .lit [116, 104, 114, 111, 119], .lit [116, 114, 117, 101], .lit [116, 114, 121], .lit [116, 121, 112, 101, 100, 101, 102], .lit [116, 121, 112, 101, 105, 100], .lit [116, 121, 112, 101, 110, 97, 109, 101], .lit [117, 110, 105, 111, 110], .lit [117, 110, 115, 105, 103, 110, 101, 100], .lit [117, 115, 105, 110, 103], .lit [118, 105, 114, 116, 117, 97, 108], .lit [118, 111, 105, 100], .lit [118, 111, 108, 97, 116, 105, 108, 101], .lit [119, 99, 104, 97, 114, 95, 116], .lit [119, 104, 105, 108, 101], .lit [120, 111, 114], .lit [120, 111, 114, 95, 101, 113]]

/-- src/parsers/c.rl:137
```
  c_operator_entity = [+\- /*%<>!=^&|?~:;.,()\[\]{}];
``` -/
def c_operator_entity : Cls := Cls.ranges [(33, 33), (37, 38), (40, 47), (58, 63), (91, 91), (93, 94), (123, 126)]

/-- src/parsers/c.rl:139-149.
```
  c_entity := |*
    space+              ${ entity = C_SPACE;      } => c_ecallback;
    c_comment_entity    ${ entity = C_COMMENT;    } => c_ecallback;
    c_string_entity     ${ entity = C_STRING;     } => c_ecallback;
    c_number_entity     ${ entity = C_NUMBER;     } => c_ecallback;
    c_preproc_entity    ${ entity = C_PREPROC;    } => c_ecallback;
    c_identifier_entity ${ entity = C_IDENTIFIER; } => c_ecallback;
    c_keyword_entity    ${ entity = C_KEYWORD;    } => c_ecallback;
    c_operator_entity   ${ entity = C_OPERATOR;   } => c_ecallback;
    ^(space | digit)    ${ entity = C_ANY;        } => c_ecallback;
  *|;
``` -/
def c_entity : Scanner where
  pats := [
  (.all (.plus (.cls (Common.space))) (.setEnt (.own 0)), .ecb),
  (.all (c_comment_entity) (.setEnt (.own 1)), .ecb),
  (.all (c_string_entity) (.setEnt (.own 2)), .ecb),
  (.all (c_number_entity) (.setEnt (.own 3)), .ecb),
  (.all (c_preproc_entity) (.setEnt (.own 4)), .ecb),
  (.all (c_identifier_entity) (.setEnt (.own 6)), .ecb),
  (.all (c_keyword_entity) (.setEnt (.own 5)), .ecb),
  (.all (.cls (c_operator_entity)) (.setEnt (.own 7)), .ecb),
  (.all (.cls (Cls.neg (Cls.union (Common.space) (Common.digit)))) (.setEnt (.own 8)), .ecb)]
  sw := []

end Ohcount.Gram.C

namespace Ohcount.Gram.Chaiscript
open Ohcount.Ragel

/-- src/parsers/chaiscript.rl:50
```
  chai_line_comment = '//' @comment nonnewline*;
``` -/
def chai_line_comment : Rx := .seqs [.fin (.lit [47, 47]) .comment, .star (.cls (Common.nonnewline))]

/-- src/parsers/chaiscript.rl:51-58
```
  chai_block_comment =
    '/*' @comment (
      newline %{ entity = INTERNAL_NL; } %chai_ccallback
      |
      ws
      |
      (nonnewline - ws) @comment
    )* :>> '*/';
``` -/
def chai_block_comment : Rx := .guard (.seqs [.fin (.lit [47, 42]) .comment, .star (.alts [.leave (.leave (Common.newline) (.setEnt .internalNl)) .cb, .cls (Common.ws), .fin (.cls (Cls.diff (Common.nonnewline) (Common.ws))) .comment])]) (.lit [42, 47])

/-- src/parsers/chaiscript.rl:59
```
  chai_comment = chai_line_comment | chai_block_comment;
``` -/
def chai_comment : Rx := .alts [chai_line_comment, chai_block_comment]

/-- src/parsers/chaiscript.rl:63-72
```
  chai_sq_str =
    '\'' @code (
      escaped_newline %{ entity = INTERNAL_NL; } %chai_ccallback
      |
      ws
      |
      [^\t '\\] @code
      |
      '\\' nonnewline @code
    )* '\'';
``` -/
def chai_sq_str : Rx := .seqs [.fin (.cls (Cls.chr 39)) .code, .star (.alts [.leave (.leave (Common.escaped_newline) (.setEnt .internalNl)) .cb, .cls (Common.ws), .fin (.cls (Cls.neg (Cls.chars [9, 32, 39, 92]))) .code, .seqs [.cls (Cls.chr 92), .fin (.cls (Common.nonnewline)) .code]]), .cls (Cls.chr 39)]

/-- src/parsers/chaiscript.rl:73-82
```
  chai_dq_str =
    '"' @code (
      escaped_newline %{ entity = INTERNAL_NL; } %chai_ccallback
      |
      ws
      |
      [^\t "\\] @code
      |
      '\\' nonnewline @code
    )* '"';
``` -/
def chai_dq_str : Rx := .seqs [.fin (.cls (Cls.chr 34)) .code, .star (.alts [.leave (.leave (Common.escaped_newline) (.setEnt .internalNl)) .cb, .cls (Common.ws), .fin (.cls (Cls.neg (Cls.chars [9, 32, 34, 92]))) .code, .seqs [.cls (Cls.chr 92), .fin (.cls (Common.nonnewline)) .code]]), .cls (Cls.chr 34)]

/-- src/parsers/chaiscript.rl:83
```
  chai_regex_str = '/' [^/*] ([^\r\n\f/\\] | '\\' nonnewline)* '/' @code;
``` -/
def chai_regex_str : Rx := .seqs [.cls (Cls.chr 47), .cls (Cls.neg (Cls.chars [42, 47])), .star (.alts [.cls (Cls.neg (Cls.ranges [(10, 10), (12, 13), (47, 47), (92, 92)])), .seqs [.cls (Cls.chr 92), .cls (Common.nonnewline)]]), .fin (.cls (Cls.chr 47)) .code]

/-- src/parsers/chaiscript.rl:84
```
  chai_string = chai_sq_str | chai_dq_str | chai_regex_str;
``` -/
def chai_string : Rx := .alts [chai_sq_str, chai_dq_str, chai_regex_str]

/-- src/parsers/chaiscript.rl:86-92 with the cases of its callback (src/parsers/chaiscript.rl:34-48).
```
  chai_line := |*
    spaces     ${ entity = CHAI_SPACE; } => chai_ccallback;
    chai_comment;
    chai_string;
    newline    ${ entity = NEWLINE;  } => chai_ccallback;
    ^space     ${ entity = CHAI_ANY;   } => chai_ccallback;
  *|;
``` -/
def chai_line : Scanner where
  pats := [
  (.all (Common.spaces) (.setEnt (.own 0)), .cb),
  (chai_comment, .none),
  (chai_string, .none),
  (.all (Common.newline) (.setEnt .newline), .cb),
  (.all (.cls (Cls.neg (Common.space))) (.setEnt (.own 7)), .cb)]
  sw := [((.own 0), .ls), ((.own 7), .code), (.internalNl, .internalNewline), (.newline, .newline)]

/-- src/parsers/chaiscript.rl:100
```
  chai_line_comment_entity = '//' nonnewline*;
``` -/
def chai_line_comment_entity : Rx := .seqs [.lit [47, 47], .star (.cls (Common.nonnewline))]

/-- src/parsers/chaiscript.rl:101
```
  chai_block_comment_entity = '/*' any* :>> '*/';
``` -/
def chai_block_comment_entity : Rx := .guard (.seqs [.lit [47, 42], .star (.cls (Cls.any))]) (.lit [42, 47])

/-- src/parsers/chaiscript.rl:102
```
  chai_comment_entity = chai_line_comment_entity | chai_block_comment_entity;
``` -/
def chai_comment_entity : Rx := .alts [chai_line_comment_entity, chai_block_comment_entity]

/-- src/parsers/chaiscript.rl:104-109.
```
  chai_entity := |*
    space+            ${ entity = CHAI_SPACE;   } => chai_ecallback;
    chai_comment_entity ${ entity = CHAI_COMMENT; } => chai_ecallback;
    # TODO:
    ^space;
  *|;
``` -/
def chai_entity : Scanner where
  pats := [
  (.all (.plus (.cls (Common.space))) (.setEnt (.own 0)), .ecb),
  (.all (chai_comment_entity) (.setEnt (.own 1)), .ecb),
  (.cls (Cls.neg (Common.space)), .none)]
  sw := []

end Ohcount.Gram.Chaiscript

namespace Ohcount.Gram.ClassicBasic
open Ohcount.Ragel

/-- src/parsers/classic_basic.rl:45
```
  cb_comment = dec_num spaces ("'" | /rem/i) @comment nonnewline*;
``` -/
def cb_comment : Rx := .seqs [Common.dec_num, Common.spaces, .fin (.alts [.cls (Cls.chr 39), .seqs [.cls (Cls.chars [82, 114]), .cls (Cls.chars [69, 101]), .cls (Cls.chars [77, 109])]]) .comment, .star (.cls (Common.nonnewline))]

/-- src/parsers/classic_basic.rl:47
```
  cb_string = '"' @code ([^\r\n\f"\\] | '\\' nonnewline)* '"';
``` -/
def cb_string : Rx := .seqs [.fin (.cls (Cls.chr 34)) .code, .star (.alts [.cls (Cls.neg (Cls.ranges [(10, 10), (12, 13), (34, 34), (92, 92)])), .seqs [.cls (Cls.chr 92), .cls (Common.nonnewline)]]), .cls (Cls.chr 34)]

/-- src/parsers/classic_basic.rl:49-55 with the cases of its callback (src/parsers/classic_basic.rl:29-43).
```
  cb_line := |*
    spaces      ${ entity = CB_SPACE; } => cb_ccallback;
    cb_comment;
    cb_string;
    newline     ${ entity = NEWLINE;  } => cb_ccallback;
    ^space      ${ entity = CB_ANY;   } => cb_ccallback;
  *|;
``` -/
def cb_line : Scanner where
  pats := [
  (.all (Common.spaces) (.setEnt (.own 0)), .cb),
  (cb_comment, .none),
  (cb_string, .none),
  (.all (Common.newline) (.setEnt .newline), .cb),
  (.all (.cls (Cls.neg (Common.space))) (.setEnt (.own 3)), .cb)]
  sw := [((.own 0), .ls), ((.own 3), .code), (.internalNl, .internalNewline), (.newline, .newline)]

/-- src/parsers/classic_basic.rl:63
```
  cb_comment_entity = ("'" | /rem/i ws+) nonnewline*;
``` -/
def cb_comment_entity : Rx := .seqs [.alts [.cls (Cls.chr 39), .seqs [.cls (Cls.chars [82, 114]), .cls (Cls.chars [69, 101]), .cls (Cls.chars [77, 109]), .plus (.cls (Common.ws))]], .star (.cls (Common.nonnewline))]

/-- src/parsers/classic_basic.rl:65-70.
```
  cb_entity := |*
    space+            ${ entity = CB_SPACE;   } => cb_ecallback;
    cb_comment_entity ${ entity = CB_COMMENT; } => cb_ecallback;
    # TODO:
    ^space;
  *|;
``` -/
def cb_entity : Scanner where
  pats := [
  (.all (.plus (.cls (Common.space))) (.setEnt (.own 0)), .ecb),
  (.all (cb_comment_entity) (.setEnt (.own 1)), .ecb),
  (.cls (Cls.neg (Common.space)), .none)]
  sw := []

end Ohcount.Gram.ClassicBasic

namespace Ohcount.Gram.Clearsilver
open Ohcount.Ragel

/-- src/parsers/clearsilver.rl:47
```
  cs_comment = '#' @comment nonnewline*;
``` -/
def cs_comment : Rx := .seqs [.fin (.cls (Cls.chr 35)) .comment, .star (.cls (Common.nonnewline))]

/-- src/parsers/clearsilver.rl:49
```
  cs_string = '"' @code ([^\r\n\f"\\] | '\\' nonnewline)* '"';
``` -/
def cs_string : Rx := .seqs [.fin (.cls (Cls.chr 34)) .code, .star (.alts [.cls (Cls.neg (Cls.ranges [(10, 10), (12, 13), (34, 34), (92, 92)])), .seqs [.cls (Cls.chr 92), .cls (Common.nonnewline)]]), .cls (Cls.chr 34)]

/-- src/parsers/clearsilver.rl:51-57 with the cases of its callback (src/parsers/clearsilver.rl:31-45).
```
  cs_line := |*
    spaces      ${ entity = CS_SPACE; } => cs_ccallback;
    cs_comment;
    cs_string;
    newline     ${ entity = NEWLINE;  } => cs_ccallback;
    ^space      ${ entity = CS_ANY;   } => cs_ccallback;
  *|;
``` -/
def cs_line : Scanner where
  pats := [
  (.all (Common.spaces) (.setEnt (.own 0)), .cb),
  (cs_comment, .none),
  (cs_string, .none),
  (.all (Common.newline) (.setEnt .newline), .cb),
  (.all (.cls (Cls.neg (Common.space))) (.setEnt (.own 3)), .cb)]
  sw := [((.own 0), .ls), ((.own 3), .code), (.internalNl, .internalNewline), (.newline, .newline)]

/-- src/parsers/clearsilver.rl:65
```
  cs_comment_entity = '#' nonnewline*;
``` -/
def cs_comment_entity : Rx := .seqs [.cls (Cls.chr 35), .star (.cls (Common.nonnewline))]

/-- src/parsers/clearsilver.rl:67-72.
```
  cs_entity := |*
    space+            ${ entity = CS_SPACE;   } => cs_ecallback;
    cs_comment_entity ${ entity = CS_COMMENT; } => cs_ecallback;
    # TODO:
    ^space;
  *|;
``` -/
def cs_entity : Scanner where
  pats := [
  (.all (.plus (.cls (Common.space))) (.setEnt (.own 0)), .ecb),
  (.all (cs_comment_entity) (.setEnt (.own 1)), .ecb),
  (.cls (Cls.neg (Common.space)), .none)]
  sw := []

end Ohcount.Gram.Clearsilver

namespace Ohcount.Gram.Cmake
open Ohcount.Ragel

/-- src/parsers/cmake.rl:56
```
  cmake_comment = '#' @comment nonnewline*;
``` -/
def cmake_comment : Rx := .seqs [.fin (.cls (Cls.chr 35)) .comment, .star (.cls (Common.nonnewline))]

/-- src/parsers/cmake.rl:58-67
```
  cmake_dq_str =
    '"' @enqueue @code (
      newline %{ entity = INTERNAL_NL; } %cmake_ccallback
      |
      ws
      |
      [^\r\n\f\t "\\] @code
      |
      '\\' nonnewline @code
    )* '"' @code @commit ;
``` -/
def cmake_dq_str : Rx := .seqs [.fin (.fin (.cls (Cls.chr 34)) .enqueue) .code, .star (.alts [.leave (.leave (Common.newline) (.setEnt .internalNl)) .cb, .cls (Common.ws), .fin (.cls (Cls.neg (Cls.ranges [(9, 10), (12, 13), (32, 32), (34, 34), (92, 92)]))) .code, .seqs [.cls (Cls.chr 92), .fin (.cls (Common.nonnewline)) .code]]), .fin (.fin (.cls (Cls.chr 34)) .code) .commit]

/-- src/parsers/cmake.rl:69
```
  cmake_string = cmake_dq_str;
``` -/
def cmake_string : Rx := cmake_dq_str

/-- src/parsers/cmake.rl:71-77 with the cases of its callback (src/parsers/cmake.rl:36-50).
```
  cmake_line := |*
    spaces         ${ entity = CMAKE_SPACE; } => cmake_ccallback;
    cmake_comment;
    cmake_string;
    newline        ${ entity = NEWLINE;     } => cmake_ccallback;
    ^space         ${ entity = CMAKE_ANY;   } => cmake_ccallback;
  *|;
``` -/
def cmake_line : Scanner where
  pats := [
  (.all (Common.spaces) (.setEnt (.own 0)), .cb),
  (cmake_comment, .none),
  (cmake_string, .none),
  (.all (Common.newline) (.setEnt .newline), .cb),
  (.all (.cls (Cls.neg (Common.space))) (.setEnt (.own 3)), .cb)]
  sw := [((.own 0), .ls), ((.own 3), .code), (.internalNl, .internalNewline), (.newline, .newline)]

/-- src/parsers/cmake.rl:85
```
  cmake_comment_entity = '#' nonnewline*;
``` -/
def cmake_comment_entity : Rx := .seqs [.cls (Cls.chr 35), .star (.cls (Common.nonnewline))]

/-- src/parsers/cmake.rl:87-92.
```
  cmake_entity := |*
    space+               ${ entity = CMAKE_SPACE;   } => cmake_ecallback;
    cmake_comment_entity ${ entity = CMAKE_COMMENT; } => cmake_ecallback;
    # TODO: see shell.rl - (what is the todo for?!)
    ^space;
  *|;
``` -/
def cmake_entity : Scanner where
  pats := [
  (.all (.plus (.cls (Common.space))) (.setEnt (.own 0)), .ecb),
  (.all (cmake_comment_entity) (.setEnt (.own 1)), .ecb),
  (.cls (Cls.neg (Common.space)), .none)]
  sw := []

end Ohcount.Gram.Cmake

