import Verif.Gram.Common

/-! Scanners transcribed from src/parsers/: glsl.rl, golang.rl, grace.rl, groovy.rl, haml.rl, haskell.rl, haxe.rl, idl_pvwave.rl, jam.rl. Generated by tools/gen_grammars.py. -/

namespace Ohcount.Gram.Glsl
open Ohcount.Ragel

/-- src/parsers/glsl.rl:51-58
```
  glsl_line_comment =
    '//' @comment (
      escaped_newline %{ entity = INTERNAL_NL; } %glsl_ccallback
      |
      ws
      |
      (nonnewline - ws) @comment
    )*;
``` -/
def glsl_line_comment : Rx := .seqs [.fin (.lit [47, 47]) .comment, .star (.alts [.leave (.leave (Common.escaped_newline) (.setEnt .internalNl)) .cb, .cls (Common.ws), .fin (.cls (Cls.diff (Common.nonnewline) (Common.ws))) .comment])]

/-- src/parsers/glsl.rl:59-66
```
  glsl_block_comment =
    '/*' @comment (
      newline %{ entity = INTERNAL_NL; } %glsl_ccallback
      |
      ws
      |
      (nonnewline - ws) @comment
    )* :>> '*/';
``` -/
def glsl_block_comment : Rx := .guard (.seqs [.fin (.lit [47, 42]) .comment, .star (.alts [.leave (.leave (Common.newline) (.setEnt .internalNl)) .cb, .cls (Common.ws), .fin (.cls (Cls.diff (Common.nonnewline) (Common.ws))) .comment])]) (.lit [42, 47])

/-- src/parsers/glsl.rl:67
```
  glsl_comment = glsl_line_comment | glsl_block_comment;
``` -/
def glsl_comment : Rx := .alts [glsl_line_comment, glsl_block_comment]

/-- src/parsers/glsl.rl:69-78
```
  glsl_sq_str =
    '\'' @code (
      escaped_newline %{ entity = INTERNAL_NL; } %glsl_ccallback
      |
      ws
      |
      [^\t '\\] @code
      |
      '\\' nonnewline @code
    )* '\'';
``` -/
def glsl_sq_str : Rx := .seqs [.fin (.cls (Cls.chr 39)) .code, .star (.alts [.leave (.leave (Common.escaped_newline) (.setEnt .internalNl)) .cb, .cls (Common.ws), .fin (.cls (Cls.neg (Cls.chars [9, 32, 39, 92]))) .code, .seqs [.cls (Cls.chr 92), .fin (.cls (Common.nonnewline)) .code]]), .cls (Cls.chr 39)]

/-- src/parsers/glsl.rl:79-88
```
  glsl_dq_str =
    '"' @code (
      escaped_newline %{ entity = INTERNAL_NL; } %glsl_ccallback
      |
      ws
      |
      [^\t "\\] @code
      |
      '\\' nonnewline @code
    )* '"';
``` -/
def glsl_dq_str : Rx := .seqs [.fin (.cls (Cls.chr 34)) .code, .star (.alts [.leave (.leave (Common.escaped_newline) (.setEnt .internalNl)) .cb, .cls (Common.ws), .fin (.cls (Cls.neg (Cls.chars [9, 32, 34, 92]))) .code, .seqs [.cls (Cls.chr 92), .fin (.cls (Common.nonnewline)) .code]]), .cls (Cls.chr 34)]

/-- src/parsers/glsl.rl:89
```
  glsl_string = glsl_sq_str | glsl_dq_str;
``` -/
def glsl_string : Rx := .alts [glsl_sq_str, glsl_dq_str]

/-- src/parsers/glsl.rl:91-97 with the cases of its callback (src/parsers/glsl.rl:35-49).
```
  glsl_line := |*
    spaces    ${ entity = GLSL_SPACE; } => glsl_ccallback;
    glsl_comment;
    glsl_string;
    newline   ${ entity = NEWLINE; } => glsl_ccallback;
    ^space    ${ entity = GLSL_ANY;   } => glsl_ccallback;
  *|;
``` -/
def glsl_line : Scanner where
  pats := [
  (.all (Common.spaces) (.setEnt (.own 0)), .cb),
  (glsl_comment, .none),
  (glsl_string, .none),
  (.all (Common.newline) (.setEnt .newline), .cb),
  (.all (.cls (Cls.neg (Common.space))) (.setEnt (.own 8)), .cb)]
  sw := [((.own 0), .ls), ((.own 8), .code), (.internalNl, .internalNewline), (.newline, .newline)]

/-- src/parsers/glsl.rl:105
```
  glsl_line_comment_entity = '//' (escaped_newline | nonnewline)*;
``` -/
def glsl_line_comment_entity : Rx := .seqs [.lit [47, 47], .star (.alts [Common.escaped_newline, .cls (Common.nonnewline)])]

/-- src/parsers/glsl.rl:106
```
  glsl_block_comment_entity = '/*' any* :>> '*/';
``` -/
def glsl_block_comment_entity : Rx := .guard (.seqs [.lit [47, 42], .star (.cls (Cls.any))]) (.lit [42, 47])

/-- src/parsers/glsl.rl:107
```
  glsl_comment_entity = glsl_line_comment_entity | glsl_block_comment_entity;
``` -/
def glsl_comment_entity : Rx := .alts [glsl_line_comment_entity, glsl_block_comment_entity]

/-- src/parsers/glsl.rl:109
```
  glsl_string_entity = sq_str_with_escapes | dq_str_with_escapes;
``` -/
def glsl_string_entity : Rx := .alts [Common.sq_str_with_escapes, Common.dq_str_with_escapes]

/-- src/parsers/glsl.rl:111
```
  glsl_number_entity = float | integer;
``` -/
def glsl_number_entity : Rx := .alts [Common.float, Common.integer]

/-- src/parsers/glsl.rl:113-119
```
  glsl_preproc_word =
  # macros
    'define' | 'undef' |
  # conditionals
    'if' | 'ifdef' | 'ifndef' | 'else' | 'elif' | 'endif' |
  # miscellanous
    'pragma' | 'error' | 'extension' | 'version' | 'line';
``` -/
def glsl_preproc_word : Rx := .alts [.lit [100, 101, 102, 105, 110, 101], .lit [117, 110, 100, 101, 102], .lit [105, 102], .lit [105, 102, 100, 101, 102], .lit [105, 102, 110, 100, 101, 102], .lit [101, 108, 115, 101], .lit [101, 108, 105, 102], .lit [101, 110, 100, 105, 102], .lit [112, 114, 97, 103, 109, 97], .lit [101, 114, 114, 111, 114], .lit [101, 120, 116, 101, 110, 115, 105, 111, 110], .lit [118, 101, 114, 115, 105, 111, 110], .lit [108, 105, 110, 101]]

/-- src/parsers/glsl.rl:122-124
```
  glsl_preproc_entity =
    '#' space* (glsl_block_comment_entity space*)?
      glsl_preproc_word (escaped_newline | nonnewline)*;
``` -/
def glsl_preproc_entity : Rx := .seqs [.cls (Cls.chr 35), .star (.cls (Common.space)), .opt (.seqs [glsl_block_comment_entity, .star (.cls (Common.space))]), glsl_preproc_word, .star (.alts [Common.escaped_newline, .cls (Common.nonnewline)])]

/-- src/parsers/glsl.rl:126
```
  glsl_identifier_entity = (alpha | '_') (alnum | '_')*;
``` -/
def glsl_identifier_entity : Rx := .seqs [.cls (Cls.union (Common.alpha) (Cls.chr 95)), .star (.cls (Cls.union (Common.alnum) (Cls.chr 95)))]

/-- src/parsers/glsl.rl:128-137
```
  glsl_keyword_entity =
    'attribute' | 'const' | 'uniform' | 'varying' | 'centroid' | 'break' |
    'continue' | 'do' | 'for' | 'while' | 'if' | 'else' | 'in' | 'out' |
    'inout' | 'float' | 'int' | 'void' | 'bool' | 'true' | 'false' |
    'invariant' | 'discard' | 'return' | 'mat2' | 'mat3' | 'mat4' |
    'mat2x2' | 'mat2x3' | 'mat2x4' | 'mat3x2' | 'mat3x3' | 'mat3x4' |
    'mat4x2' | 'mat4x3' | 'mat4x4' | 'vec2' | 'vec3' | 'vec4' | 'ivec2' |
    'ivec3' | 'ivec4' | 'bvec2' | 'bvec3' | 'bvec4' | 'sampler1D' |
    'sampler2D' | 'sampler3D' | 'samplerCube' | 'sampler1DShadow' |
    'sampler2DShadow' | 'struct';
``` -/
def glsl_keyword_entity : Rx := .alts [.lit [97, 116, 116, 114, 105, 98, 117, 116, 101], .lit [99, 111, 110, 115, 116], .lit [117, 110, 105, 102, 111, 114, 109], .lit [118, 97, 114, 121, 105, 110, 103], .lit [99, 101, 110, 116, 114, 111, 105, 100], .lit [98, 114, 101, 97, 107], .lit [99, 111, 110, 116, 105, 110, 117, 101], .lit [100, 111], .lit [102, 111, 114], .lit [119, 104, 105, 108, 101], .lit [105, 102], .lit [101, 108, 115, 101], .lit [105, 110], .lit [111, 117, 116], .lit [105, 110, 111, 117, 116], .lit [102, 108, 111, 97, 116], .lit [105, 110, 116], .lit [118, 111, 105, 100], .lit [98, 111, 111, 108], .lit [116, 114, 117, 101], .lit [102, 97, 108, 115, 101], .lit [105, 110, 118, 97, 114, 105, 97, 110, 116], .lit [100, 105, 115, 99, 97, 114, 100], .lit [114, 101, 116, 117, 114, 110], .lit [109, 97, 116, 50], .lit [109, 97, 116, 51], .lit [109, 97, 116, 52], .lit [109, 97, 116, 50, 120, 50], .lit [109, 97, 116, 50, 120, 51], .lit [109, 97, 116, 50, 120, 52], .lit [109, 97, 116, 51, 120, 50], .lit [109, 97, 116, 51, 120, 51], .lit [109, 97, 116, 51, 120, 52], .lit [109, 97, 116, 52, 120, 50], .lit [109, 97, 116, 52, 120, 51], .lit [109, 97, 116, 52, 120, 52], .lit [118, 101, 99, 50], .lit [118, 101, 99, 51], .lit [118, 101, 99, 52], .lit [105, 118, 101, 99, 50], .lit [105, 118, 101, 99, 51], .lit [105, 118, 101, 99, 52], .lit [98, 118, 101, 99, 50], .lit [98, 118, 101, 99, 51], .lit [98, 118, 101, 99, 52], .lit [115, 97, 109, 112, 108, 101, 114, 49, 68], .lit [115, 97, 109, 112, 108, 101, 114, 50, 68], .lit [115, 97, 109, 112, 108, 101, 114, 51, 68], .lit [115, 97, 109, 112, 108, 101, 114, 67, 117, 98, 101], .lit [115, 97, 109, 112, 108, 101, 114, 49, 68, 83, 104, 97, 100, 111, 119], .lit [115, 97, 109, 112, 108, 101, 114, 50, 68, 83, 104, 97, 100, 111, 119], .lit [115, 116, 114, 117, 99, 116]]

/-- src/parsers/glsl.rl:140
```
  glsl_operator_entity = [+\- /*%<>!=^&|?~:;.,()\[\]{}];
``` -/
def glsl_operator_entity : Cls := Cls.ranges [(33, 33), (37, 38), (40, 47), (58, 63), (91, 91), (93, 94), (123, 126)]

/-- src/parsers/glsl.rl:142-152.
```
  glsl_entity := |*
    space+                 ${ entity = GLSL_SPACE;      } => glsl_ecallback;
    glsl_comment_entity    ${ entity = GLSL_COMMENT;    } => glsl_ecallback;
    glsl_string_entity     ${ entity = GLSL_STRING;     } => glsl_ecallback;
    glsl_number_entity     ${ entity = GLSL_NUMBER;     } => glsl_ecallback;
    glsl_preproc_entity    ${ entity = GLSL_PREPROC;    } => glsl_ecallback;
    glsl_identifier_entity ${ entity = GLSL_IDENTIFIER; } => glsl_ecallback;
    glsl_keyword_entity    ${ entity = GLSL_KEYWORD;    } => glsl_ecallback;
    glsl_operator_entity   ${ entity = GLSL_OPERATOR;   } => glsl_ecallback;
    ^(space | digit)       ${ entity = GLSL_ANY;        } => glsl_ecallback;
  *|;
``` -/
def glsl_entity : Scanner where
  pats := [
  (.all (.plus (.cls (Common.space))) (.setEnt (.own 0)), .ecb),
  (.all (glsl_comment_entity) (.setEnt (.own 1)), .ecb),
  (.all (glsl_string_entity) (.setEnt (.own 2)), .ecb),
  (.all (glsl_number_entity) (.setEnt (.own 3)), .ecb),
  (.all (glsl_preproc_entity) (.setEnt (.own 4)), .ecb),
  (.all (glsl_identifier_entity) (.setEnt (.own 6)), .ecb),
  (.all (glsl_keyword_entity) (.setEnt (.own 5)), .ecb),
  (.all (.cls (glsl_operator_entity)) (.setEnt (.own 7)), .ecb),
  (.all (.cls (Cls.neg (Cls.union (Common.space) (Common.digit)))) (.setEnt (.own 8)), .ecb)]
  sw := []

end Ohcount.Gram.Glsl

namespace Ohcount.Gram.Golang
open Ohcount.Ragel

/-- src/parsers/golang.rl:49-56
```
  golang_line_comment =
    '//' @comment (
      escaped_newline %{ entity = INTERNAL_NL; } %golang_ccallback
      |
      ws
      |
      (nonnewline - ws) @comment
    )*;
``` -/
def golang_line_comment : Rx := .seqs [.fin (.lit [47, 47]) .comment, .star (.alts [.leave (.leave (Common.escaped_newline) (.setEnt .internalNl)) .cb, .cls (Common.ws), .fin (.cls (Cls.diff (Common.nonnewline) (Common.ws))) .comment])]

/-- src/parsers/golang.rl:57-64
```
  golang_block_comment =
    '/*' @comment (
      newline %{ entity = INTERNAL_NL; } %golang_ccallback
      |
      ws
      |
      (nonnewline - ws) @comment
    )* :>> '*/';
``` -/
def golang_block_comment : Rx := .guard (.seqs [.fin (.lit [47, 42]) .comment, .star (.alts [.leave (.leave (Common.newline) (.setEnt .internalNl)) .cb, .cls (Common.ws), .fin (.cls (Cls.diff (Common.nonnewline) (Common.ws))) .comment])]) (.lit [42, 47])

/-- src/parsers/golang.rl:65
```
  golang_comment = golang_line_comment | golang_block_comment;
``` -/
def golang_comment : Rx := .alts [golang_line_comment, golang_block_comment]

/-- src/parsers/golang.rl:67-76
```
  golang_sq_str =
    '\'' @code (
      escaped_newline %{ entity = INTERNAL_NL; } %golang_ccallback
      |
      ws
      |
      [^\t '\\] @code
      |
      '\\' nonnewline @code
    )* '\'';
``` -/
def golang_sq_str : Rx := .seqs [.fin (.cls (Cls.chr 39)) .code, .star (.alts [.leave (.leave (Common.escaped_newline) (.setEnt .internalNl)) .cb, .cls (Common.ws), .fin (.cls (Cls.neg (Cls.chars [9, 32, 39, 92]))) .code, .seqs [.cls (Cls.chr 92), .fin (.cls (Common.nonnewline)) .code]]), .cls (Cls.chr 39)]

/-- src/parsers/golang.rl:77-86
```
  golang_dq_str =
    '"' @code (
      escaped_newline %{ entity = INTERNAL_NL; } %golang_ccallback
      |
      ws
      |
      [^\t "\\] @code
      |
      '\\' nonnewline @code
    )* '"';
``` -/
def golang_dq_str : Rx := .seqs [.fin (.cls (Cls.chr 34)) .code, .star (.alts [.leave (.leave (Common.escaped_newline) (.setEnt .internalNl)) .cb, .cls (Common.ws), .fin (.cls (Cls.neg (Cls.chars [9, 32, 34, 92]))) .code, .seqs [.cls (Cls.chr 92), .fin (.cls (Common.nonnewline)) .code]]), .cls (Cls.chr 34)]

/-- src/parsers/golang.rl:87
```
  golang_string = golang_sq_str | golang_dq_str;
``` -/
def golang_string : Rx := .alts [golang_sq_str, golang_dq_str]

/-- src/parsers/golang.rl:89-95 with the cases of its callback (src/parsers/golang.rl:33-47).
```
  golang_line := |*
    spaces    ${ entity = GOLANG_SPACE; } => golang_ccallback;
    golang_comment;
    golang_string;
    newline   ${ entity = NEWLINE; } => golang_ccallback;
    ^space    ${ entity = GOLANG_ANY;   } => golang_ccallback;
  *|;
``` -/
def golang_line : Scanner where
  pats := [
  (.all (Common.spaces) (.setEnt (.own 0)), .cb),
  (golang_comment, .none),
  (golang_string, .none),
  (.all (Common.newline) (.setEnt .newline), .cb),
  (.all (.cls (Cls.neg (Common.space))) (.setEnt (.own 8)), .cb)]
  sw := [((.own 0), .ls), ((.own 8), .code), (.internalNl, .internalNewline), (.newline, .newline)]

/-- src/parsers/golang.rl:103
```
  golang_line_comment_entity = '//' (escaped_newline | nonnewline)*;
``` -/
def golang_line_comment_entity : Rx := .seqs [.lit [47, 47], .star (.alts [Common.escaped_newline, .cls (Common.nonnewline)])]

/-- src/parsers/golang.rl:104
```
  golang_block_comment_entity = '/*' any* :>> '*/';
``` -/
def golang_block_comment_entity : Rx := .guard (.seqs [.lit [47, 42], .star (.cls (Cls.any))]) (.lit [42, 47])

/-- src/parsers/golang.rl:105
```
  golang_comment_entity = golang_line_comment_entity | golang_block_comment_entity;
``` -/
def golang_comment_entity : Rx := .alts [golang_line_comment_entity, golang_block_comment_entity]

/-- src/parsers/golang.rl:107
```
  golang_string_entity = sq_str_with_escapes | dq_str_with_escapes;
``` -/
def golang_string_entity : Rx := .alts [Common.sq_str_with_escapes, Common.dq_str_with_escapes]

/-- src/parsers/golang.rl:109
```
  golang_number_entity = float | integer;
``` -/
def golang_number_entity : Rx := .alts [Common.float, Common.integer]

/-- src/parsers/golang.rl:111-114
```
  golang_preprogolang_word =
    'define' | 'elif' | 'else' | 'endif' | 'error' | 'if' | 'ifdef' |
    'ifndef' | 'import' | 'include' | 'line' | 'pragma' | 'undef' |
    'using' | 'warning';
``` -/
def golang_preprogolang_word : Rx := .alts [.lit [100, 101, 102, 105, 110, 101], .lit [101, 108, 105, 102], .lit [101, 108, 115, 101], .lit [101, 110, 100, 105, 102], .lit [101, 114, 114, 111, 114], .lit [105, 102], .lit [105, 102, 100, 101, 102], .lit [105, 102, 110, 100, 101, 102], .lit [105, 109, 112, 111, 114, 116], .lit [105, 110, 99, 108, 117, 100, 101], .lit [108, 105, 110, 101], .lit [112, 114, 97, 103, 109, 97], .lit [117, 110, 100, 101, 102], .lit [117, 115, 105, 110, 103], .lit [119, 97, 114, 110, 105, 110, 103]]

/-- src/parsers/golang.rl:117-119
```
  golang_preprogolang_entity =
    '#' space* (golang_block_comment_entity space*)?
      golang_preprogolang_word (escaped_newline | nonnewline)*;
``` -/
def golang_preprogolang_entity : Rx := .seqs [.cls (Cls.chr 35), .star (.cls (Common.space)), .opt (.seqs [golang_block_comment_entity, .star (.cls (Common.space))]), golang_preprogolang_word, .star (.alts [Common.escaped_newline, .cls (Common.nonnewline)])]

/-- src/parsers/golang.rl:121
```
  golang_identifier_entity = (alpha | '_') (alnum | '_')*;
``` -/
def golang_identifier_entity : Rx := .seqs [.cls (Cls.union (Common.alpha) (Cls.chr 95)), .star (.cls (Cls.union (Common.alnum) (Cls.chr 95)))]

/-- src/parsers/golang.rl:123-135
```
  golang_keyword_entity =
    'and' | 'and_eq' | 'asm' | 'auto' | 'bitand' | 'bitor' | 'bool' |
    'break' | 'case' | 'catch' | 'char' | 'class' | 'compl' | 'const' |
    'const_cast' | 'continue' | 'default' | 'delete' | 'do' | 'double' |
    'dynamigolang_cast' | 'else' | 'enum' | 'explicit' | 'export' | 'extern' |
    'false' | 'float' | 'for' | 'friend' | 'goto' | 'if' | 'inline' | 'int' |
    'long' | 'mutable' | 'namespace' | 'new' | 'not' | 'not_eq' |
    'operator' | 'or' | 'or_eq' | 'private' | 'protected' | 'public' |
    'register' | 'reinterpret_cast' | 'return' | 'short' | 'signed' |
    'sizeof' | 'static' | 'statigolang_cast' | 'struct' | 'switch' |
    'template' | 'this' | 'throw' | 'true' | 'try' | 'typedef' | 'typeid' |
    'typename' | 'union' | 'unsigned' | 'using' | 'virtual' | 'void' |
    'volatile' | 'wchar_t' | 'while' | 'xor' | 'xor_eq';
``` -/
def golang_keyword_entity : Rx := .alts [.lit [97, 110, 100], .lit [97, 110, 100, 95, 101, 113], .lit [97, 115, 109], .lit [97, 117, 116, 111], .lit [98, 105, 116, 97, 110, 100], .lit [98, 105, 116, 111, 114], .lit [98, 111, 111, 108], .lit [98, 114, 101, 97, 107], .lit [99, 97, 115, 101], .lit [99, 97, 116, 99, 104], .lit [99, 104, 97, 114], .lit [99, 108, 97, 115, 115], .lit [99, 111, 109, 112, 108], .lit [99, 111, 110, 115, 116], .lit [99, 111, 110, 115, 116, 95, 99, 97, 115, 116], .lit [99, 111, 110, 116, 105, 110, 117, 101], .lit [100, 101, 102, 97, 117, 108, 116], .lit [100, 101, 108, 101, 116, 101], .lit [100, 111], .lit [100, 111, 117, 98, 108, 101], .lit [100, 121, 110, 97, 109, 105, 103, 111, 108, 97, 110, 103, 95, 99, 97, 115, 116], .lit [101, 108, 115, 101], .lit [101, 110, 117, 109], .lit [101, 120, 112, 108, 105, 99, 105, 116], .lit [101, 120, 112, 111, 114, 116], .lit [101, 120, 116, 101, 114, 110], .lit [102, 97, 108, 115, 101], .lit [102, 108, 111, 97, 116], .lit [102, 111, 114], .lit [102, 114, 105, 101, 110, 100], .lit [103, 111, 116, 111], .lit [105, 102], .lit [105, 110, 108, 105, 110, 101], .lit [105, 110, 116], .lit [108, 111, 110, 103], .lit [109, 117, 116, 97, 98, 108, 101], .lit [110, 97, 109, 101, 115, 112, 97, 99, 101], .lit [110, 101, 119], .lit [110, 111, 116], .lit [110, 111, 116, 95, 101, 113], .lit [111, 112, 101, 114, 97, 116, 111, 114], .lit [111, 114], .lit [111, 114, 95, 101, 113], .lit [112, 114, 105, 118, 97, 116, 101], .lit [112, 114, 111, 116, 101, 99, 116, 101, 100], .lit [112, 117, 98, 108, 105, 99], .lit [114, 101, 103, 105, 115, 116, 101, 114], .lit [114, 101, 105, 110, 116, 101, 114, 112, 114, 101, 116, 95, 99, 97, 115, 116], .lit [114, 101, 116, 117, 114, 110], .lit [115, 104, 111, 114, 116], .lit [115, 105, 103, 110, 101, 100], .lit [115, 105, 122, 101, 111, 102], .lit [115, 116, 97, 116, 105, 99], .lit [115, 116, 97, 116, 105, 103, 111, 108, 97, 110, 103, 95, 99, 97, 115, 116], .lit [115, 116, 114, 117, 99, 116], .lit [115, 119, 105, 116, 99, 104], .lit [116, 101, 109, 112, 108, 97, 116, 101], .lit [116, 104, 105, 115], .lit [116, 104, 114, 111, 119], .lit [116, 114, 117, 101], .lit [116, 114, 121], .lit [116, 121, 112, 101, 100, 101, 102], .lit [116, 121, 112, 101, 105, 100], .lit [116, 121, 112, 101, 110, 97, 109, 101], .lit [117, 110, 105, 111, 110], .lit [117, 110, 115, 105, 103, 110, 101, 100], .lit [117, 115, 105, 110, 103], .lit [118, 105, 114, 116, 117, 97, 108], .lit [118, 111, 105, 100], .lit [118, 111, 108, 97, 116, 105, 108, 101], .lit [119, 99, 104, 97, 114, 95, 116], .lit [119, 104, 105, 108, 101], .lit [120, 111, 114], .lit [120, 111, 114, 95, 101, 113]]

/-- src/parsers/golang.rl:137
```
  golang_operator_entity = [+\- /*%<>!=^&|?~:;.,()\[\]{}];
``` -/
def golang_operator_entity : Cls := Cls.ranges [(33, 33), (37, 38), (40, 47), (58, 63), (91, 91), (93, 94), (123, 126)]

/-- src/parsers/golang.rl:139-149.
```
  golang_entity := |*
    space+              ${ entity = GOLANG_SPACE;      } => golang_ecallback;
    golang_comment_entity    ${ entity = GOLANG_COMMENT;    } => golang_ecallback;
    golang_string_entity     ${ entity = GOLANG_STRING;     } => golang_ecallback;
    golang_number_entity     ${ entity = GOLANG_NUMBER;     } => golang_ecallback;
    golang_preprogolang_entity    ${ entity = GOLANG_PREPROC;    } => golang_ecallback;
    golang_identifier_entity ${ entity = GOLANG_IDENTIFIER; } => golang_ecallback;
    golang_keyword_entity    ${ entity = GOLANG_KEYWORD;    } => golang_ecallback;
    golang_operator_entity   ${ entity = GOLANG_OPERATOR;   } => golang_ecallback;
    ^(space | digit)    ${ entity = GOLANG_ANY;        } => golang_ecallback;
  *|;
``` -/
def golang_entity : Scanner where
  pats := [
  (.all (.plus (.cls (Common.space))) (.setEnt (.own 0)), .ecb),
  (.all (golang_comment_entity) (.setEnt (.own 1)), .ecb),
  (.all (golang_string_entity) (.setEnt (.own 2)), .ecb),
  (.all (golang_number_entity) (.setEnt (.own 3)), .ecb),
  (.all (golang_preprogolang_entity) (.setEnt (.own 4)), .ecb),
  (.all (golang_identifier_entity) (.setEnt (.own 6)), .ecb),
  (.all (golang_keyword_entity) (.setEnt (.own 5)), .ecb),
  (.all (.cls (golang_operator_entity)) (.setEnt (.own 7)), .ecb),
  (.all (.cls (Cls.neg (Cls.union (Common.space) (Common.digit)))) (.setEnt (.own 8)), .ecb)]
  sw := []

end Ohcount.Gram.Golang

namespace Ohcount.Gram.Grace
open Ohcount.Ragel

/-- src/parsers/grace.rl:48
```
  grace_comment = '//' @comment nonnewline*;
``` -/
def grace_comment : Rx := .seqs [.fin (.lit [47, 47]) .comment, .star (.cls (Common.nonnewline))]

/-- src/parsers/grace.rl:50-57
```
  grace_string =
    '"' @enqueue @code (
      newline %{ entity = INTERNAL_NL; } %grace_ccallback
      |
      ws
      |
      [^\r\n\f\t "\\] @code
    )* '"' @commit;
``` -/
def grace_string : Rx := .seqs [.fin (.fin (.cls (Cls.chr 34)) .enqueue) .code, .star (.alts [.leave (.leave (Common.newline) (.setEnt .internalNl)) .cb, .cls (Common.ws), .fin (.cls (Cls.neg (Cls.ranges [(9, 10), (12, 13), (32, 32), (34, 34), (92, 92)]))) .code]), .fin (.cls (Cls.chr 34)) .commit]

/-- src/parsers/grace.rl:59-65 with the cases of its callback (src/parsers/grace.rl:32-46).
```
  grace_line := |*
    spaces         ${ entity = GRACE_SPACE; } => grace_ccallback;
    grace_comment;
    grace_string;
    newline        ${ entity = NEWLINE;     } => grace_ccallback;
    ^space         ${ entity = GRACE_ANY;   } => grace_ccallback;
  *|;
``` -/
def grace_line : Scanner where
  pats := [
  (.all (Common.spaces) (.setEnt (.own 0)), .cb),
  (grace_comment, .none),
  (grace_string, .none),
  (.all (Common.newline) (.setEnt .newline), .cb),
  (.all (.cls (Cls.neg (Common.space))) (.setEnt (.own 3)), .cb)]
  sw := [((.own 0), .ls), ((.own 3), .code), (.internalNl, .internalNewline), (.newline, .newline)]

/-- src/parsers/grace.rl:73
```
  grace_comment_entity = '//' nonnewline*;
``` -/
def grace_comment_entity : Rx := .seqs [.lit [47, 47], .star (.cls (Common.nonnewline))]

/-- src/parsers/grace.rl:75-80.
```
  grace_entity := |*
    space+               ${ entity = GRACE_SPACE;   } => grace_ecallback;
    grace_comment_entity ${ entity = GRACE_COMMENT; } => grace_ecallback;
    # TODO:
    ^space;
  *|;
``` -/
def grace_entity : Scanner where
  pats := [
  (.all (.plus (.cls (Common.space))) (.setEnt (.own 0)), .ecb),
  (.all (grace_comment_entity) (.setEnt (.own 1)), .ecb),
  (.cls (Cls.neg (Common.space)), .none)]
  sw := []

end Ohcount.Gram.Grace

namespace Ohcount.Gram.Groovy
open Ohcount.Ragel

/-- src/parsers/groovy.rl:47-54
```
  groovy_line_comment =
    '//' @comment (
      escaped_newline %{ entity = INTERNAL_NL; } %groovy_ccallback
      |
      ws
      |
      (nonnewline - ws) @comment
    )*;
``` -/
def groovy_line_comment : Rx := .seqs [.fin (.lit [47, 47]) .comment, .star (.alts [.leave (.leave (Common.escaped_newline) (.setEnt .internalNl)) .cb, .cls (Common.ws), .fin (.cls (Cls.diff (Common.nonnewline) (Common.ws))) .comment])]

/-- src/parsers/groovy.rl:55-62
```
  groovy_block_comment =
    '/*' @comment (
      newline %{ entity = INTERNAL_NL; } %groovy_ccallback
      |
      ws
      |
      (nonnewline - ws) @comment
    )* :>> '*/';
``` -/
def groovy_block_comment : Rx := .guard (.seqs [.fin (.lit [47, 42]) .comment, .star (.alts [.leave (.leave (Common.newline) (.setEnt .internalNl)) .cb, .cls (Common.ws), .fin (.cls (Cls.diff (Common.nonnewline) (Common.ws))) .comment])]) (.lit [42, 47])

/-- src/parsers/groovy.rl:63
```
  groovy_comment = groovy_line_comment | groovy_block_comment;
``` -/
def groovy_comment : Rx := .alts [groovy_line_comment, groovy_block_comment]

/-- src/parsers/groovy.rl:65-74
```
  groovy_sq_str =
    '\'' @code (
      escaped_newline %{ entity = INTERNAL_NL; } %groovy_ccallback
      |
      ws
      |
      [^\t '\\] @code
      |
      '\\' nonnewline @code
    )* '\'';
``` -/
def groovy_sq_str : Rx := .seqs [.fin (.cls (Cls.chr 39)) .code, .star (.alts [.leave (.leave (Common.escaped_newline) (.setEnt .internalNl)) .cb, .cls (Common.ws), .fin (.cls (Cls.neg (Cls.chars [9, 32, 39, 92]))) .code, .seqs [.cls (Cls.chr 92), .fin (.cls (Common.nonnewline)) .code]]), .cls (Cls.chr 39)]

/-- src/parsers/groovy.rl:75-84
```
  groovy_dq_str =
    '"' @code (
      escaped_newline %{ entity = INTERNAL_NL; } %groovy_ccallback
      |
      ws
      |
      [^\t "\\] @code
      |
      '\\' nonnewline @code
    )* '"';
``` -/
def groovy_dq_str : Rx := .seqs [.fin (.cls (Cls.chr 34)) .code, .star (.alts [.leave (.leave (Common.escaped_newline) (.setEnt .internalNl)) .cb, .cls (Common.ws), .fin (.cls (Cls.neg (Cls.chars [9, 32, 34, 92]))) .code, .seqs [.cls (Cls.chr 92), .fin (.cls (Common.nonnewline)) .code]]), .cls (Cls.chr 34)]

/-- src/parsers/groovy.rl:85
```
  groovy_string = groovy_sq_str | groovy_dq_str;
``` -/
def groovy_string : Rx := .alts [groovy_sq_str, groovy_dq_str]

/-- src/parsers/groovy.rl:87-93 with the cases of its callback (src/parsers/groovy.rl:31-45).
```
  groovy_line := |*
    spaces          ${ entity = GROOVY_SPACE; } => groovy_ccallback;
    groovy_comment;
    groovy_string;
    newline         ${ entity = NEWLINE;      } => groovy_ccallback;
    ^space          ${ entity = GROOVY_ANY;   } => groovy_ccallback;
  *|;
``` -/
def groovy_line : Scanner where
  pats := [
  (.all (Common.spaces) (.setEnt (.own 0)), .cb),
  (groovy_comment, .none),
  (groovy_string, .none),
  (.all (Common.newline) (.setEnt .newline), .cb),
  (.all (.cls (Cls.neg (Common.space))) (.setEnt (.own 3)), .cb)]
  sw := [((.own 0), .ls), ((.own 3), .code), (.internalNl, .internalNewline), (.newline, .newline)]

/-- src/parsers/groovy.rl:102
```
  groovy_line_comment_entity = '//' (escaped_newline | nonnewline)*;
``` -/
def groovy_line_comment_entity : Rx := .seqs [.lit [47, 47], .star (.alts [Common.escaped_newline, .cls (Common.nonnewline)])]

/-- src/parsers/groovy.rl:103
```
  groovy_block_comment_entity = '/*' any* :>> '*/';
``` -/
def groovy_block_comment_entity : Rx := .guard (.seqs [.lit [47, 42], .star (.cls (Cls.any))]) (.lit [42, 47])

/-- src/parsers/groovy.rl:104-105
```
  groovy_comment_entity =
    groovy_line_comment_entity | groovy_block_comment_entity;
``` -/
def groovy_comment_entity : Rx := .alts [groovy_line_comment_entity, groovy_block_comment_entity]

/-- src/parsers/groovy.rl:107-112.
```
  groovy_entity := |*
    space+                ${ entity = GROOVY_SPACE;   } => groovy_ecallback;
    groovy_comment_entity ${ entity = GROOVY_COMMENT; } => groovy_ecallback;
    # TODO:
    ^space;
  *|;
``` -/
def groovy_entity : Scanner where
  pats := [
  (.all (.plus (.cls (Common.space))) (.setEnt (.own 0)), .ecb),
  (.all (groovy_comment_entity) (.setEnt (.own 1)), .ecb),
  (.cls (Cls.neg (Common.space)), .none)]
  sw := []

end Ohcount.Gram.Groovy

namespace Ohcount.Gram.Haml
open Ohcount.Ragel

/-- src/parsers/haml.rl:157
```
  haml_element_entity = '%' alnum+;
``` -/
def haml_element_entity : Rx := .seqs [.cls (Cls.chr 37), .plus (.cls (Common.alnum))]

/-- src/parsers/haml.rl:158
```
  haml_element_class_entity = '.' alnum+;
``` -/
def haml_element_class_entity : Rx := .seqs [.cls (Cls.chr 46), .plus (.cls (Common.alnum))]

/-- src/parsers/haml.rl:159
```
  haml_element_id_entity = '#' alnum+;
``` -/
def haml_element_id_entity : Rx := .seqs [.cls (Cls.chr 35), .plus (.cls (Common.alnum))]

/-- src/parsers/haml.rl:66
```
  haml_ruby_evaluator = "==" | ([&!]? "=") | "-"  | "~";
``` -/
def haml_ruby_evaluator : Rx := .alts [.lit [61, 61], .seqs [.opt (.cls (Cls.chars [33, 38])), .cls (Cls.chr 61)], .cls (Cls.chr 45), .cls (Cls.chr 126)]

/-- src/parsers/haml.rl:170
```
  haml_evaluator_entity = haml_ruby_evaluator;
``` -/
def haml_evaluator_entity : Rx := haml_ruby_evaluator

/-- src/parsers/haml.rl:67
```
  haml_comment_delimiter = ("-#" | "/");
``` -/
def haml_comment_delimiter : Rx := .alts [.lit [45, 35], .cls (Cls.chr 47)]

/-- src/parsers/haml.rl:161-168
```
  haml_string_entity = (nonnewline
      - haml_comment_delimiter
      - haml_ruby_evaluator
      - "."
      - "#"
      - "%"
      - [ ])
    (nonnewline | ("|" newline))*;
``` -/
def haml_string_entity : Rx := .seqs [.cls (Cls.diff (Cls.diff (Cls.diff (Cls.diff (Cls.diff (Cls.diff (Common.nonnewline) (Cls.chr 47)) (Cls.chars [45, 61, 126])) (Cls.chr 46)) (Cls.chr 35)) (Cls.chr 37)) (Cls.chr 32)), .star (.alts [.cls (Common.nonnewline), .seqs [.cls (Cls.chr 124), Common.newline]])]

/-- src/parsers/haml.rl:174-182.
```
  haml_entity := |*
    space+                     ${ entity = HAML_SPACE;          }  => haml_ecallback;
    haml_element_entity        ${ entity = HAML_ELEMENT;        }  => haml_ecallback;
    haml_element_class_entity  ${ entity = HAML_ELEMENT_CLASS;  }  => haml_ecallback;
    haml_element_id_entity     ${ entity = HAML_ELEMENT_ID;     }  => haml_ecallback;
    haml_evaluator_entity      ${ entity = HAML_EVALUATOR;      }  => haml_ecallback;
    haml_string_entity         ${ entity = HAML_STRING;         }  => haml_ecallback;
    ^space                     ${ entity = HAML_ANY;            }  => haml_ecallback;
  *|;
``` -/
def haml_entity : Scanner where
  pats := [
  (.all (.plus (.cls (Common.space))) (.setEnt (.own 0)), .ecb),
  (.all (haml_element_entity) (.setEnt (.own 3)), .ecb),
  (.all (haml_element_class_entity) (.setEnt (.own 4)), .ecb),
  (.all (haml_element_id_entity) (.setEnt (.own 5)), .ecb),
  (.all (haml_evaluator_entity) (.setEnt (.own 6)), .ecb),
  (.all (haml_string_entity) (.setEnt (.own 2)), .ecb),
  (.all (.cls (Cls.neg (Common.space))) (.setEnt (.own 7)), .ecb)]
  sw := []

end Ohcount.Gram.Haml

namespace Ohcount.Gram.Haskell
open Ohcount.Ragel

/-- src/parsers/haskell.rl:52
```
  haskell_line_comment = '--' [^>] @{ fhold; } @comment nonnewline*;
``` -/
def haskell_line_comment : Rx := .seqs [.lit [45, 45], .fin (.fin (.cls (Cls.neg (Cls.chr 62))) (.fhold 0)) .comment, .star (.cls (Common.nonnewline))]

/-- src/parsers/haskell.rl:53-64
```
  haskell_nested_block_comment =
    '{-' >haskell_comment_nc_res @comment (
      newline %{ entity = INTERNAL_NL; } %haskell_ccallback
      |
      ws
      |
      '{-' @haskell_comment_nc_inc @comment
      |
      '-}' @haskell_comment_nc_dec @comment
      |
      (nonnewline - ws) @comment
    )* :>> ('-}' when { nest_count == 0 }) @comment;
``` -/
def haskell_nested_block_comment : Rx := .guard (.seqs [.fin (.ent (.lit [123, 45]) .nestRes) .comment, .star (.alts [.leave (.leave (Common.newline) (.setEnt .internalNl)) .cb, .cls (Common.ws), .fin (.fin (.lit [123, 45]) .nestInc) .comment, .fin (.fin (.lit [45, 125]) .nestDec) .comment, .fin (.cls (Cls.diff (Common.nonnewline) (Common.ws))) .comment])]) (.fin (.cond (.lit [45, 125]) .nestZero) .comment)

/-- src/parsers/haskell.rl:65
```
  haskell_comment = haskell_line_comment | haskell_nested_block_comment;
``` -/
def haskell_comment : Rx := .alts [haskell_line_comment, haskell_nested_block_comment]

/-- src/parsers/haskell.rl:67
```
  haskell_char = '\'' @code ([^\r\n\f'\\] | '\\' nonnewline) '\'';
``` -/
def haskell_char : Rx := .seqs [.fin (.cls (Cls.chr 39)) .code, .alts [.cls (Cls.neg (Cls.ranges [(10, 10), (12, 13), (39, 39), (92, 92)])), .seqs [.cls (Cls.chr 92), .cls (Common.nonnewline)]], .cls (Cls.chr 39)]

/-- src/parsers/haskell.rl:68-77
```
  haskell_dq_str =
    '"' @code (
      escaped_newline %{ entity = INTERNAL_NL; } %haskell_ccallback
      |
      ws
      |
      [^\t "\\] @code
      |
      '\\' nonnewline @code
    )* '"';
``` -/
def haskell_dq_str : Rx := .seqs [.fin (.cls (Cls.chr 34)) .code, .star (.alts [.leave (.leave (Common.escaped_newline) (.setEnt .internalNl)) .cb, .cls (Common.ws), .fin (.cls (Cls.neg (Cls.chars [9, 32, 34, 92]))) .code, .seqs [.cls (Cls.chr 92), .fin (.cls (Common.nonnewline)) .code]]), .cls (Cls.chr 34)]

/-- src/parsers/haskell.rl:78
```
  haskell_string = haskell_char | haskell_dq_str;
``` -/
def haskell_string : Rx := .alts [haskell_char, haskell_dq_str]

/-- src/parsers/haskell.rl:80-86 with the cases of its callback (src/parsers/haskell.rl:31-45).
```
  haskell_line := |*
    spaces           ${ entity = HASKELL_SPACE; } => haskell_ccallback;
    haskell_comment;
    haskell_string;
    newline          ${ entity = NEWLINE;       } => haskell_ccallback;
    ^space           ${ entity = HASKELL_ANY;   } => haskell_ccallback;
  *|;
``` -/
def haskell_line : Scanner where
  pats := [
  (.all (Common.spaces) (.setEnt (.own 0)), .cb),
  (haskell_comment, .none),
  (haskell_string, .none),
  (.all (Common.newline) (.setEnt .newline), .cb),
  (.all (.cls (Cls.neg (Common.space))) (.setEnt (.own 3)), .cb)]
  sw := [((.own 0), .ls), ((.own 3), .code), (.internalNl, .internalNewline), (.newline, .newline)]

/-- src/parsers/haskell.rl:95
```
  haskell_line_comment_entity = '--' [^>] @{ fhold; } nonnewline*;
``` -/
def haskell_line_comment_entity : Rx := .seqs [.lit [45, 45], .fin (.cls (Cls.neg (Cls.chr 62))) (.fhold 1), .star (.cls (Common.nonnewline))]

/-- src/parsers/haskell.rl:96-102
```
  haskell_block_comment_entity = '{-' >haskell_comment_nc_res (
    '{-' @haskell_comment_nc_inc
    |
    '-}' @haskell_comment_nc_dec
    |
    any
  )* :>> ('-}' when { nest_count == 0 });
``` -/
def haskell_block_comment_entity : Rx := .guard (.seqs [.ent (.lit [123, 45]) .nestRes, .star (.alts [.fin (.lit [123, 45]) .nestInc, .fin (.lit [45, 125]) .nestDec, .cls (Cls.any)])]) (.cond (.lit [45, 125]) .nestZero)

/-- src/parsers/haskell.rl:103-104
```
  haskell_comment_entity =
    haskell_line_comment_entity | haskell_block_comment_entity;
``` -/
def haskell_comment_entity : Rx := .alts [haskell_line_comment_entity, haskell_block_comment_entity]

/-- src/parsers/haskell.rl:106-111.
```
  haskell_entity := |*
    space+                 ${ entity = HASKELL_SPACE;   } => haskell_ecallback;
    haskell_comment_entity ${ entity = HASKELL_COMMENT; } => haskell_ecallback;
    # TODO:
    ^space;
  *|;
``` -/
def haskell_entity : Scanner where
  pats := [
  (.all (.plus (.cls (Common.space))) (.setEnt (.own 0)), .ecb),
  (.all (haskell_comment_entity) (.setEnt (.own 1)), .ecb),
  (.cls (Cls.neg (Common.space)), .none)]
  sw := []

end Ohcount.Gram.Haskell

namespace Ohcount.Gram.Haxe
open Ohcount.Ragel

/-- src/parsers/haxe.rl:47-54
```
  hx_line_comment =
    '//' @comment (
      escaped_newline %{ entity = INTERNAL_NL; } %hx_ccallback
      |
      ws
      |
      (nonnewline - ws) @comment
    )*;
``` -/
def hx_line_comment : Rx := .seqs [.fin (.lit [47, 47]) .comment, .star (.alts [.leave (.leave (Common.escaped_newline) (.setEnt .internalNl)) .cb, .cls (Common.ws), .fin (.cls (Cls.diff (Common.nonnewline) (Common.ws))) .comment])]

/-- src/parsers/haxe.rl:56-63
```
    hx_block_comment =
    '/*' @comment (
      newline %{ entity = INTERNAL_NL; } %hx_ccallback
      |
      ws
      |
      (nonnewline - ws) @comment
    )* :>> '*/';
``` -/
def hx_block_comment : Rx := .guard (.seqs [.fin (.lit [47, 42]) .comment, .star (.alts [.leave (.leave (Common.newline) (.setEnt .internalNl)) .cb, .cls (Common.ws), .fin (.cls (Cls.diff (Common.nonnewline) (Common.ws))) .comment])]) (.lit [42, 47])

/-- src/parsers/haxe.rl:64
```
  hx_comment = hx_line_comment | hx_block_comment;
``` -/
def hx_comment : Rx := .alts [hx_line_comment, hx_block_comment]

/-- src/parsers/haxe.rl:66
```
  hx_sq_str = '\'' @code ([^\r\n\f'\\] | '\\' nonnewline)* '\'';
``` -/
def hx_sq_str : Rx := .seqs [.fin (.cls (Cls.chr 39)) .code, .star (.alts [.cls (Cls.neg (Cls.ranges [(10, 10), (12, 13), (39, 39), (92, 92)])), .seqs [.cls (Cls.chr 92), .cls (Common.nonnewline)]]), .cls (Cls.chr 39)]

/-- src/parsers/haxe.rl:67
```
  hx_dq_str = '"' @code ([^\r\n\f"\\] | '\\' nonnewline)* '"';
``` -/
def hx_dq_str : Rx := .seqs [.fin (.cls (Cls.chr 34)) .code, .star (.alts [.cls (Cls.neg (Cls.ranges [(10, 10), (12, 13), (34, 34), (92, 92)])), .seqs [.cls (Cls.chr 92), .cls (Common.nonnewline)]]), .cls (Cls.chr 34)]

/-- src/parsers/haxe.rl:68
```
  hx_string = hx_sq_str | hx_dq_str;
``` -/
def hx_string : Rx := .alts [hx_sq_str, hx_dq_str]

/-- src/parsers/haxe.rl:70-76 with the cases of its callback (src/parsers/haxe.rl:31-45).
```
  hx_line := |*
    spaces      ${ entity = HX_SPACE; } => hx_ccallback;
    hx_comment;
    hx_string;
    newline     ${ entity = NEWLINE;  } => hx_ccallback;
    ^space      ${ entity = HX_ANY;   } => hx_ccallback;
  *|;
``` -/
def hx_line : Scanner where
  pats := [
  (.all (Common.spaces) (.setEnt (.own 0)), .cb),
  (hx_comment, .none),
  (hx_string, .none),
  (.all (Common.newline) (.setEnt .newline), .cb),
  (.all (.cls (Cls.neg (Common.space))) (.setEnt (.own 3)), .cb)]
  sw := [((.own 0), .ls), ((.own 3), .code), (.internalNl, .internalNewline), (.newline, .newline)]

/-- src/parsers/haxe.rl:83
```
  hx_line_comment_entity = '//' nonnewline*;
``` -/
def hx_line_comment_entity : Rx := .seqs [.lit [47, 47], .star (.cls (Common.nonnewline))]

/-- src/parsers/haxe.rl:84
```
  hx_block_comment_entity = '/*' any* :>> '*/';
``` -/
def hx_block_comment_entity : Rx := .guard (.seqs [.lit [47, 42], .star (.cls (Cls.any))]) (.lit [42, 47])

/-- src/parsers/haxe.rl:85
```
  hx_comment_entity = hx_line_comment_entity | hx_block_comment_entity;
``` -/
def hx_comment_entity : Rx := .alts [hx_line_comment_entity, hx_block_comment_entity]

/-- src/parsers/haxe.rl:87-92.
```
  hx_entity := |*
    space+            ${ entity = HX_SPACE;   } => hx_ecallback;
    hx_comment_entity ${ entity = HX_COMMENT; } => hx_ecallback;
    # TODO:
    ^space;
  *|;
``` -/
def hx_entity : Scanner where
  pats := [
  (.all (.plus (.cls (Common.space))) (.setEnt (.own 0)), .ecb),
  (.all (hx_comment_entity) (.setEnt (.own 1)), .ecb),
  (.cls (Cls.neg (Common.space)), .none)]
  sw := []

end Ohcount.Gram.Haxe

namespace Ohcount.Gram.IdlPvwave
open Ohcount.Ragel

/-- src/parsers/idl_pvwave.rl:48
```
  idl_pvwave_comment = ';' @comment nonnewline*;
``` -/
def idl_pvwave_comment : Rx := .seqs [.fin (.cls (Cls.chr 59)) .comment, .star (.cls (Common.nonnewline))]

/-- src/parsers/idl_pvwave.rl:50-55 with the cases of its callback (src/parsers/idl_pvwave.rl:32-46).
```
  idl_pvwave_line := |*
    spaces       ${ entity = IDL_PVWAVE_SPACE; } => idl_pvwave_ccallback;
    idl_pvwave_comment;
    newline      ${ entity = NEWLINE;   } => idl_pvwave_ccallback;
    ^space       ${ entity = IDL_PVWAVE_ANY;   } => idl_pvwave_ccallback;
  *|;
``` -/
def idl_pvwave_line : Scanner where
  pats := [
  (.all (Common.spaces) (.setEnt (.own 0)), .cb),
  (idl_pvwave_comment, .none),
  (.all (Common.newline) (.setEnt .newline), .cb),
  (.all (.cls (Cls.neg (Common.space))) (.setEnt (.own 3)), .cb)]
  sw := [((.own 0), .ls), ((.own 3), .code), (.internalNl, .internalNewline), (.newline, .newline)]

/-- src/parsers/idl_pvwave.rl:63
```
  idl_pvwave_comment_entity = ';' nonnewline*;
``` -/
def idl_pvwave_comment_entity : Rx := .seqs [.cls (Cls.chr 59), .star (.cls (Common.nonnewline))]

/-- src/parsers/idl_pvwave.rl:65-70.
```
  idl_pvwave_entity := |*
    space+             ${ entity = IDL_PVWAVE_SPACE;   } => idl_pvwave_ecallback;
    idl_pvwave_comment_entity ${ entity = IDL_PVWAVE_COMMENT; } => idl_pvwave_ecallback;
    # TODO:
    ^space;
  *|;
``` -/
def idl_pvwave_entity : Scanner where
  pats := [
  (.all (.plus (.cls (Common.space))) (.setEnt (.own 0)), .ecb),
  (.all (idl_pvwave_comment_entity) (.setEnt (.own 1)), .ecb),
  (.cls (Cls.neg (Common.space)), .none)]
  sw := []

end Ohcount.Gram.IdlPvwave

namespace Ohcount.Gram.Jam
open Ohcount.Ragel

/-- src/parsers/jam.rl:47
```
  jam_comment = '#' @comment nonnewline*;
``` -/
def jam_comment : Rx := .seqs [.fin (.cls (Cls.chr 35)) .comment, .star (.cls (Common.nonnewline))]

/-- src/parsers/jam.rl:49-58
```
  jam_sq_str =
    '\'' @enqueue @code (
      newline %{ entity = INTERNAL_NL; } %jam_ccallback
      |
      ws
      |
      [^\r\n\f\t '\\] @code
      |
      '\\' nonnewline @code
    )* '\'' @commit;
``` -/
def jam_sq_str : Rx := .seqs [.fin (.fin (.cls (Cls.chr 39)) .enqueue) .code, .star (.alts [.leave (.leave (Common.newline) (.setEnt .internalNl)) .cb, .cls (Common.ws), .fin (.cls (Cls.neg (Cls.ranges [(9, 10), (12, 13), (32, 32), (39, 39), (92, 92)]))) .code, .seqs [.cls (Cls.chr 92), .fin (.cls (Common.nonnewline)) .code]]), .fin (.cls (Cls.chr 39)) .commit]

/-- src/parsers/jam.rl:59-68
```
  jam_dq_str =
    '"' @enqueue @code (
      newline %{ entity = INTERNAL_NL; } %jam_ccallback
      |
      ws
      |
      [^\r\n\f\t "\\] @code
      |
      '\\' nonnewline @code
    )* '"' @commit;
``` -/
def jam_dq_str : Rx := .seqs [.fin (.fin (.cls (Cls.chr 34)) .enqueue) .code, .star (.alts [.leave (.leave (Common.newline) (.setEnt .internalNl)) .cb, .cls (Common.ws), .fin (.cls (Cls.neg (Cls.ranges [(9, 10), (12, 13), (32, 32), (34, 34), (92, 92)]))) .code, .seqs [.cls (Cls.chr 92), .fin (.cls (Common.nonnewline)) .code]]), .fin (.cls (Cls.chr 34)) .commit]

/-- src/parsers/jam.rl:70
```
  jam_string = jam_sq_str | jam_dq_str;
``` -/
def jam_string : Rx := .alts [jam_sq_str, jam_dq_str]

/-- src/parsers/jam.rl:72-78 with the cases of its callback (src/parsers/jam.rl:31-45).
```
  jam_line := |*
    spaces         ${ entity = JAM_SPACE; } => jam_ccallback;
    jam_comment;
    jam_string;
    newline        ${ entity = NEWLINE;     } => jam_ccallback;
    ^space         ${ entity = JAM_ANY;   } => jam_ccallback;
  *|;
``` -/
def jam_line : Scanner where
  pats := [
  (.all (Common.spaces) (.setEnt (.own 0)), .cb),
  (jam_comment, .none),
  (jam_string, .none),
  (.all (Common.newline) (.setEnt .newline), .cb),
  (.all (.cls (Cls.neg (Common.space))) (.setEnt (.own 3)), .cb)]
  sw := [((.own 0), .ls), ((.own 3), .code), (.internalNl, .internalNewline), (.newline, .newline)]

/-- src/parsers/jam.rl:86
```
  jam_comment_entity = '#' nonnewline*;
``` -/
def jam_comment_entity : Rx := .seqs [.cls (Cls.chr 35), .star (.cls (Common.nonnewline))]

/-- src/parsers/jam.rl:88-93.
```
  jam_entity := |*
    space+               ${ entity = JAM_SPACE;   } => jam_ecallback;
    jam_comment_entity ${ entity = JAM_COMMENT; } => jam_ecallback;
    # TODO:
    ^space;
  *|;
``` -/
def jam_entity : Scanner where
  pats := [
  (.all (.plus (.cls (Common.space))) (.setEnt (.own 0)), .ecb),
  (.all (jam_comment_entity) (.setEnt (.own 1)), .ecb),
  (.cls (Cls.neg (Common.space)), .none)]
  sw := []

end Ohcount.Gram.Jam

