import Verif.Gram.Common

/-! Scanners transcribed from src/parsers/: tex.rl, tex_dtx.rl, umple.rl, unrealscript.rl, vhdl.rl, vim.rl, visual_basic.rl, xaml.rl, xml.rl. Generated by tools/gen_grammars.py. -/

namespace Ohcount.Gram.Tex
open Ohcount.Ragel

/-- src/parsers/tex.rl:47
```
  tex_comment = '%' @comment nonnewline*;
``` -/
def tex_comment : Rx := .seqs [.fin (.cls (Cls.chr 37)) .comment, .star (.cls (Common.nonnewline))]

/-- src/parsers/tex.rl:49-54 with the cases of its callback (src/parsers/tex.rl:31-45).
```
  tex_line := |*
    spaces       ${ entity = TEX_SPACE; } => tex_ccallback;
    tex_comment;
    newline      ${ entity = NEWLINE;   } => tex_ccallback;
    ^space       ${ entity = TEX_ANY;   } => tex_ccallback;
  *|;
``` -/
def tex_line : Scanner where
  pats := [
  (.all (Common.spaces) (.setEnt (.own 0)), .cb),
  (tex_comment, .none),
  (.all (Common.newline) (.setEnt .newline), .cb),
  (.all (.cls (Cls.neg (Common.space))) (.setEnt (.own 3)), .cb)]
  sw := [((.own 0), .ls), ((.own 3), .code), (.internalNl, .internalNewline), (.newline, .newline)]

/-- src/parsers/tex.rl:62
```
  tex_comment_entity = '%' nonnewline*;
``` -/
def tex_comment_entity : Rx := .seqs [.cls (Cls.chr 37), .star (.cls (Common.nonnewline))]

/-- src/parsers/tex.rl:64-69.
```
  tex_entity := |*
    space+             ${ entity = TEX_SPACE;   } => tex_ecallback;
    tex_comment_entity ${ entity = TEX_COMMENT; } => tex_ecallback;
    # TODO:
    ^space;
  *|;
``` -/
def tex_entity : Scanner where
  pats := [
  (.all (.plus (.cls (Common.space))) (.setEnt (.own 0)), .ecb),
  (.all (tex_comment_entity) (.setEnt (.own 1)), .ecb),
  (.cls (Cls.neg (Common.space)), .none)]
  sw := []

end Ohcount.Gram.Tex

namespace Ohcount.Gram.TexDtx
open Ohcount.Ragel

/-- src/parsers/tex_dtx.rl:48
```
  tex_dtx_comment = '%%' @comment nonnewline*;
``` -/
def tex_dtx_comment : Rx := .seqs [.fin (.lit [37, 37]) .comment, .star (.cls (Common.nonnewline))]

/-- src/parsers/tex_dtx.rl:50-55 with the cases of its callback (src/parsers/tex_dtx.rl:32-46).
```
  tex_dtx_line := |*
    spaces       ${ entity = TEX_DTX_SPACE; } => tex_dtx_ccallback;
    tex_dtx_comment;
    newline      ${ entity = NEWLINE;   } => tex_dtx_ccallback;
    ^space       ${ entity = TEX_DTX_ANY;   } => tex_dtx_ccallback;
  *|;
``` -/
def tex_dtx_line : Scanner where
  pats := [
  (.all (Common.spaces) (.setEnt (.own 0)), .cb),
  (tex_dtx_comment, .none),
  (.all (Common.newline) (.setEnt .newline), .cb),
  (.all (.cls (Cls.neg (Common.space))) (.setEnt (.own 3)), .cb)]
  sw := [((.own 0), .ls), ((.own 3), .code), (.internalNl, .internalNewline), (.newline, .newline)]

/-- src/parsers/tex_dtx.rl:63
```
  tex_dtx_comment_entity = '%%' nonnewline*;
``` -/
def tex_dtx_comment_entity : Rx := .seqs [.lit [37, 37], .star (.cls (Common.nonnewline))]

/-- src/parsers/tex_dtx.rl:65-70.
```
  tex_dtx_entity := |*
    space+             ${ entity = TEX_DTX_SPACE;   } => tex_dtx_ecallback;
    tex_dtx_comment_entity ${ entity = TEX_DTX_COMMENT; } => tex_dtx_ecallback;
    # TODO:
    ^space;
  *|;
``` -/
def tex_dtx_entity : Scanner where
  pats := [
  (.all (.plus (.cls (Common.space))) (.setEnt (.own 0)), .ecb),
  (.all (tex_dtx_comment_entity) (.setEnt (.own 1)), .ecb),
  (.cls (Cls.neg (Common.space)), .none)]
  sw := []

end Ohcount.Gram.TexDtx

namespace Ohcount.Gram.Umple
open Ohcount.Ragel

/-- src/parsers/umple.rl:49
```
  umple_line_comment = '//' @comment nonnewline*;
``` -/
def umple_line_comment : Rx := .seqs [.fin (.lit [47, 47]) .comment, .star (.cls (Common.nonnewline))]

/-- src/parsers/umple.rl:50-57
```
  umple_block_comment =
    '/*' @comment (
      newline %{ entity = INTERNAL_NL; } %umple_ccallback
      |
      ws
      |
      (nonnewline - ws) @comment
    )* :>> '*/';
``` -/
def umple_block_comment : Rx := .guard (.seqs [.fin (.lit [47, 42]) .comment, .star (.alts [.leave (.leave (Common.newline) (.setEnt .internalNl)) .cb, .cls (Common.ws), .fin (.cls (Cls.diff (Common.nonnewline) (Common.ws))) .comment])]) (.lit [42, 47])

/-- src/parsers/umple.rl:58
```
  umple_comment = umple_line_comment | umple_block_comment;
``` -/
def umple_comment : Rx := .alts [umple_line_comment, umple_block_comment]

/-- src/parsers/umple.rl:60
```
  umple_sq_str = '\'' @code ([^\r\n\f'\\] | '\\' nonnewline)* '\'';
``` -/
def umple_sq_str : Rx := .seqs [.fin (.cls (Cls.chr 39)) .code, .star (.alts [.cls (Cls.neg (Cls.ranges [(10, 10), (12, 13), (39, 39), (92, 92)])), .seqs [.cls (Cls.chr 92), .cls (Common.nonnewline)]]), .cls (Cls.chr 39)]

/-- src/parsers/umple.rl:61
```
  umple_dq_str = '"' @code ([^\r\n\f"\\] | '\\' nonnewline)* '"';
``` -/
def umple_dq_str : Rx := .seqs [.fin (.cls (Cls.chr 34)) .code, .star (.alts [.cls (Cls.neg (Cls.ranges [(10, 10), (12, 13), (34, 34), (92, 92)])), .seqs [.cls (Cls.chr 92), .cls (Common.nonnewline)]]), .cls (Cls.chr 34)]

/-- src/parsers/umple.rl:62
```
  umple_string = umple_sq_str | umple_dq_str;
``` -/
def umple_string : Rx := .alts [umple_sq_str, umple_dq_str]

/-- src/parsers/umple.rl:64-70 with the cases of its callback (src/parsers/umple.rl:33-47).
```
  umple_line := |*
    spaces        ${ entity = UMPLE_SPACE; } => umple_ccallback;
    umple_comment;
    umple_string;
    newline       ${ entity = NEWLINE;    } => umple_ccallback;
    ^space        ${ entity = UMPLE_ANY;   } => umple_ccallback;
  *|;
``` -/
def umple_line : Scanner where
  pats := [
  (.all (Common.spaces) (.setEnt (.own 0)), .cb),
  (umple_comment, .none),
  (umple_string, .none),
  (.all (Common.newline) (.setEnt .newline), .cb),
  (.all (.cls (Cls.neg (Common.space))) (.setEnt (.own 7)), .cb)]
  sw := [((.own 0), .ls), ((.own 7), .code), (.internalNl, .internalNewline), (.newline, .newline)]

/-- src/parsers/umple.rl:78
```
  umple_line_comment_entity = '//' nonnewline*;
``` -/
def umple_line_comment_entity : Rx := .seqs [.lit [47, 47], .star (.cls (Common.nonnewline))]

/-- src/parsers/umple.rl:79
```
  umple_block_comment_entity = '/*' any* :>> '*/';
``` -/
def umple_block_comment_entity : Rx := .guard (.seqs [.lit [47, 42], .star (.cls (Cls.any))]) (.lit [42, 47])

/-- src/parsers/umple.rl:80
```
  umple_comment_entity = umple_line_comment_entity | umple_block_comment_entity;
``` -/
def umple_comment_entity : Rx := .alts [umple_line_comment_entity, umple_block_comment_entity]

/-- src/parsers/umple.rl:82-87.
```
  umple_entity := |*
    space+              ${ entity = UMPLE_SPACE;   } => umple_ecallback;
    umple_comment_entity ${ entity = UMPLE_COMMENT; } => umple_ecallback;
    # TODO:
    ^space;
  *|;
``` -/
def umple_entity : Scanner where
  pats := [
  (.all (.plus (.cls (Common.space))) (.setEnt (.own 0)), .ecb),
  (.all (umple_comment_entity) (.setEnt (.own 1)), .ecb),
  (.cls (Cls.neg (Common.space)), .none)]
  sw := []

end Ohcount.Gram.Umple

namespace Ohcount.Gram.Unrealscript
open Ohcount.Ragel

/-- src/parsers/unrealscript.rl:47
```
  unrealscript_line_comment = '//' @comment nonnewline*;
``` -/
def unrealscript_line_comment : Rx := .seqs [.fin (.lit [47, 47]) .comment, .star (.cls (Common.nonnewline))]

/-- src/parsers/unrealscript.rl:48-55
```
  unrealscript_block_comment =
    '/*' @comment (
      newline %{ entity = INTERNAL_NL; } %unrealscript_ccallback
      |
      ws
      |
      (nonnewline - ws) @comment
    )* :>> '*/';
``` -/
def unrealscript_block_comment : Rx := .guard (.seqs [.fin (.lit [47, 42]) .comment, .star (.alts [.leave (.leave (Common.newline) (.setEnt .internalNl)) .cb, .cls (Common.ws), .fin (.cls (Cls.diff (Common.nonnewline) (Common.ws))) .comment])]) (.lit [42, 47])

/-- src/parsers/unrealscript.rl:56
```
  unrealscript_comment = unrealscript_line_comment | unrealscript_block_comment;
``` -/
def unrealscript_comment : Rx := .alts [unrealscript_line_comment, unrealscript_block_comment]

/-- src/parsers/unrealscript.rl:58-67
```
  unrealscript_sq_str =
    '\'' @code (
      escaped_newline %{ entity = INTERNAL_NL; } %unrealscript_ccallback
      |
      ws
      |
      [^\t '\\] @code
      |
      '\\' nonnewline @code
    )* '\'';
``` -/
def unrealscript_sq_str : Rx := .seqs [.fin (.cls (Cls.chr 39)) .code, .star (.alts [.leave (.leave (Common.escaped_newline) (.setEnt .internalNl)) .cb, .cls (Common.ws), .fin (.cls (Cls.neg (Cls.chars [9, 32, 39, 92]))) .code, .seqs [.cls (Cls.chr 92), .fin (.cls (Common.nonnewline)) .code]]), .cls (Cls.chr 39)]

/-- src/parsers/unrealscript.rl:68-77
```
  unrealscript_dq_str =
    '"' @code (
      escaped_newline %{ entity = INTERNAL_NL; } %unrealscript_ccallback
      |
      ws
      |
      [^\t "\\] @code
      |
      '\\' nonnewline @code
    )* '"';
``` -/
def unrealscript_dq_str : Rx := .seqs [.fin (.cls (Cls.chr 34)) .code, .star (.alts [.leave (.leave (Common.escaped_newline) (.setEnt .internalNl)) .cb, .cls (Common.ws), .fin (.cls (Cls.neg (Cls.chars [9, 32, 34, 92]))) .code, .seqs [.cls (Cls.chr 92), .fin (.cls (Common.nonnewline)) .code]]), .cls (Cls.chr 34)]

/-- src/parsers/unrealscript.rl:78
```
  unrealscript_string = unrealscript_sq_str | unrealscript_dq_str;
``` -/
def unrealscript_string : Rx := .alts [unrealscript_sq_str, unrealscript_dq_str]

/-- src/parsers/unrealscript.rl:80-86 with the cases of its callback (src/parsers/unrealscript.rl:31-45).
```
  unrealscript_line := |*
    spaces     ${ entity = UNREALSCRIPT_SPACE; } => unrealscript_ccallback;
    unrealscript_comment;
    unrealscript_string;
    newline    ${ entity = NEWLINE;            } => unrealscript_ccallback;
    ^space     ${ entity = UNREALSCRIPT_ANY;   } => unrealscript_ccallback;
  *|;
``` -/
def unrealscript_line : Scanner where
  pats := [
  (.all (Common.spaces) (.setEnt (.own 0)), .cb),
  (unrealscript_comment, .none),
  (unrealscript_string, .none),
  (.all (Common.newline) (.setEnt .newline), .cb),
  (.all (.cls (Cls.neg (Common.space))) (.setEnt (.own 3)), .cb)]
  sw := [((.own 0), .ls), ((.own 3), .code), (.internalNl, .internalNewline), (.newline, .newline)]

/-- src/parsers/unrealscript.rl:94
```
  unrealscript_line_comment_entity = '//' nonnewline*;
``` -/
def unrealscript_line_comment_entity : Rx := .seqs [.lit [47, 47], .star (.cls (Common.nonnewline))]

/-- src/parsers/unrealscript.rl:95
```
  unrealscript_block_comment_entity = '/*' any* :>> '*/';
``` -/
def unrealscript_block_comment_entity : Rx := .guard (.seqs [.lit [47, 42], .star (.cls (Cls.any))]) (.lit [42, 47])

/-- src/parsers/unrealscript.rl:96
```
  unrealscript_comment_entity = unrealscript_line_comment_entity | unrealscript_block_comment_entity;
``` -/
def unrealscript_comment_entity : Rx := .alts [unrealscript_line_comment_entity, unrealscript_block_comment_entity]

/-- src/parsers/unrealscript.rl:98-103.
```
  unrealscript_entity := |*
    space+                      ${ entity = UNREALSCRIPT_SPACE;   } => unrealscript_ecallback;
    unrealscript_comment_entity ${ entity = UNREALSCRIPT_COMMENT; } => unrealscript_ecallback;
    # TODO:
    ^space;
  *|;
``` -/
def unrealscript_entity : Scanner where
  pats := [
  (.all (.plus (.cls (Common.space))) (.setEnt (.own 0)), .ecb),
  (.all (unrealscript_comment_entity) (.setEnt (.own 1)), .ecb),
  (.cls (Cls.neg (Common.space)), .none)]
  sw := []

end Ohcount.Gram.Unrealscript

namespace Ohcount.Gram.Vhdl
open Ohcount.Ragel

/-- src/parsers/vhdl.rl:47
```
  vhdl_comment = '--' @comment nonnewline*;
``` -/
def vhdl_comment : Rx := .seqs [.fin (.lit [45, 45]) .comment, .star (.cls (Common.nonnewline))]

/-- src/parsers/vhdl.rl:49
```
  vhdl_char = '\'' @code [^\r\n\f'] '\'';
``` -/
def vhdl_char : Rx := .seqs [.fin (.cls (Cls.chr 39)) .code, .cls (Cls.neg (Cls.ranges [(10, 10), (12, 13), (39, 39)])), .cls (Cls.chr 39)]

/-- src/parsers/vhdl.rl:50
```
  vhdl_dq_str = '"' @code [^\r\n\f"]* '"';
``` -/
def vhdl_dq_str : Rx := .seqs [.fin (.cls (Cls.chr 34)) .code, .star (.cls (Cls.neg (Cls.ranges [(10, 10), (12, 13), (34, 34)]))), .cls (Cls.chr 34)]

/-- src/parsers/vhdl.rl:51
```
  vhdl_string = vhdl_char | vhdl_dq_str;
``` -/
def vhdl_string : Rx := .alts [vhdl_char, vhdl_dq_str]

/-- src/parsers/vhdl.rl:53-59 with the cases of its callback (src/parsers/vhdl.rl:31-45).
```
  vhdl_line := |*
    spaces        ${ entity = VHDL_SPACE; } => vhdl_ccallback;
    vhdl_comment;
    vhdl_string;
    newline       ${ entity = NEWLINE;    } => vhdl_ccallback;
    ^space        ${ entity = VHDL_ANY;   } => vhdl_ccallback;
  *|;
``` -/
def vhdl_line : Scanner where
  pats := [
  (.all (Common.spaces) (.setEnt (.own 0)), .cb),
  (vhdl_comment, .none),
  (vhdl_string, .none),
  (.all (Common.newline) (.setEnt .newline), .cb),
  (.all (.cls (Cls.neg (Common.space))) (.setEnt (.own 3)), .cb)]
  sw := [((.own 0), .ls), ((.own 3), .code), (.internalNl, .internalNewline), (.newline, .newline)]

/-- src/parsers/vhdl.rl:67
```
  vhdl_comment_entity = '--' nonnewline*;
``` -/
def vhdl_comment_entity : Rx := .seqs [.lit [45, 45], .star (.cls (Common.nonnewline))]

/-- src/parsers/vhdl.rl:69-74.
```
  vhdl_entity := |*
    space+ ${ entity = VHDL_SPACE; } => vhdl_ecallback;
    vhdl_comment_entity ${ entity = VHDL_COMMENT; } => vhdl_ecallback;
    # TODO:
    ^space;
  *|;
``` -/
def vhdl_entity : Scanner where
  pats := [
  (.all (.plus (.cls (Common.space))) (.setEnt (.own 0)), .ecb),
  (.all (vhdl_comment_entity) (.setEnt (.own 1)), .ecb),
  (.cls (Cls.neg (Common.space)), .none)]
  sw := []

end Ohcount.Gram.Vhdl

namespace Ohcount.Gram.Vim
open Ohcount.Ragel

/-- src/parsers/vim.rl:47
```
  vim_comment = '"' when no_code  @comment nonnewline*;
``` -/
def vim_comment : Rx := .seqs [.fin (.cond (.cls (Cls.chr 34)) .noCode) .comment, .star (.cls (Common.nonnewline))]

/-- src/parsers/vim.rl:49
```
  vim_sq_str = '\'' @code ([^\r\n\f'\\] | '\\' any)* '\'';
``` -/
def vim_sq_str : Rx := .seqs [.fin (.cls (Cls.chr 39)) .code, .star (.alts [.cls (Cls.neg (Cls.ranges [(10, 10), (12, 13), (39, 39), (92, 92)])), .seqs [.cls (Cls.chr 92), .cls (Cls.any)]]), .cls (Cls.chr 39)]

/-- src/parsers/vim.rl:50
```
  vim_dq_str = '"' when !no_code @code ([^\r\n\f"\\] | '\\' any)* '"';
``` -/
def vim_dq_str : Rx := .seqs [.fin (.cond (.cls (Cls.chr 34)) .someCode) .code, .star (.alts [.cls (Cls.neg (Cls.ranges [(10, 10), (12, 13), (34, 34), (92, 92)])), .seqs [.cls (Cls.chr 92), .cls (Cls.any)]]), .cls (Cls.chr 34)]

/-- src/parsers/vim.rl:51
```
  vim_string = vim_sq_str | vim_dq_str;
``` -/
def vim_string : Rx := .alts [vim_sq_str, vim_dq_str]

/-- src/parsers/vim.rl:53-61 with the cases of its callback (src/parsers/vim.rl:31-45).
```
  vim_line := |*
    spaces         ${ entity = VIM_SPACE; } => vim_ccallback;
    vim_comment;
    vim_string;
    newline        ${ entity = NEWLINE;   } => vim_ccallback;
    #'"';
    ^(space | '"') ${ entity = VIM_ANY;   } => vim_ccallback;

  *|;
``` -/
def vim_line : Scanner where
  pats := [
  (.all (Common.spaces) (.setEnt (.own 0)), .cb),
  (vim_comment, .none),
  (vim_string, .none),
  (.all (Common.newline) (.setEnt .newline), .cb),
  (.all (.cls (Cls.neg (Cls.union (Common.space) (Cls.chr 34)))) (.setEnt (.own 3)), .cb)]
  sw := [((.own 0), .ls), ((.own 3), .code), (.internalNl, .internalNewline), (.newline, .newline)]

end Ohcount.Gram.Vim

namespace Ohcount.Gram.VisualBasic
open Ohcount.Ragel

/-- src/parsers/visual_basic.rl:47
```
  vb_comment = ('\'' | /rem/i) @comment nonnewline*;
``` -/
def vb_comment : Rx := .seqs [.fin (.alts [.cls (Cls.chr 39), .seqs [.cls (Cls.chars [82, 114]), .cls (Cls.chars [69, 101]), .cls (Cls.chars [77, 109])]]) .comment, .star (.cls (Common.nonnewline))]

/-- src/parsers/visual_basic.rl:49
```
  vb_string = '"' @code ([^\r\n\f"\\] | '\\' nonnewline)* '"';
``` -/
def vb_string : Rx := .seqs [.fin (.cls (Cls.chr 34)) .code, .star (.alts [.cls (Cls.neg (Cls.ranges [(10, 10), (12, 13), (34, 34), (92, 92)])), .seqs [.cls (Cls.chr 92), .cls (Common.nonnewline)]]), .cls (Cls.chr 34)]

/-- src/parsers/visual_basic.rl:51-57 with the cases of its callback (src/parsers/visual_basic.rl:31-45).
```
  vb_line := |*
    spaces      ${ entity = VB_SPACE; } => vb_ccallback;
    vb_comment;
    vb_string;
    newline     ${ entity = NEWLINE;  } => vb_ccallback;
    ^space      ${ entity = VB_ANY;   } => vb_ccallback;
  *|;
``` -/
def vb_line : Scanner where
  pats := [
  (.all (Common.spaces) (.setEnt (.own 0)), .cb),
  (vb_comment, .none),
  (vb_string, .none),
  (.all (Common.newline) (.setEnt .newline), .cb),
  (.all (.cls (Cls.neg (Common.space))) (.setEnt (.own 3)), .cb)]
  sw := [((.own 0), .ls), ((.own 3), .code), (.internalNl, .internalNewline), (.newline, .newline)]

/-- src/parsers/visual_basic.rl:65
```
  vb_comment_entity = ('\'' | /rem/i) nonnewline*;
``` -/
def vb_comment_entity : Rx := .seqs [.alts [.cls (Cls.chr 39), .seqs [.cls (Cls.chars [82, 114]), .cls (Cls.chars [69, 101]), .cls (Cls.chars [77, 109])]], .star (.cls (Common.nonnewline))]

/-- src/parsers/visual_basic.rl:67-72.
```
  vb_entity := |*
    space+            ${ entity = VB_SPACE;   } => vb_ecallback;
    vb_comment_entity ${ entity = VB_COMMENT; } => vb_ecallback;
    # TODO:
    ^space;
  *|;
``` -/
def vb_entity : Scanner where
  pats := [
  (.all (.plus (.cls (Common.space))) (.setEnt (.own 0)), .ecb),
  (.all (vb_comment_entity) (.setEnt (.own 1)), .ecb),
  (.cls (Cls.neg (Common.space)), .none)]
  sw := []

end Ohcount.Gram.VisualBasic

namespace Ohcount.Gram.Xaml
open Ohcount.Ragel

/-- src/parsers/xaml.rl:50-57
```
  xaml_comment =
    '<!--' @comment (
      newline %{ entity = INTERNAL_NL; } %xaml_ccallback
      |
      ws
      |
      (nonnewline - ws) @comment
    )* :>> '-->';
``` -/
def xaml_comment : Rx := .guard (.seqs [.fin (.lit [60, 33, 45, 45]) .comment, .star (.alts [.leave (.leave (Common.newline) (.setEnt .internalNl)) .cb, .cls (Common.ws), .fin (.cls (Cls.diff (Common.nonnewline) (Common.ws))) .comment])]) (.lit [45, 45, 62])

/-- src/parsers/xaml.rl:59
```
  xaml_sq_str = '\'' [^\r\n\f']* '\'' @code;
``` -/
def xaml_sq_str : Rx := .seqs [.cls (Cls.chr 39), .star (.cls (Cls.neg (Cls.ranges [(10, 10), (12, 13), (39, 39)]))), .fin (.cls (Cls.chr 39)) .code]

/-- src/parsers/xaml.rl:60
```
  xaml_dq_str = '"' [^\r\n\f"]* '"' @code;
``` -/
def xaml_dq_str : Rx := .seqs [.cls (Cls.chr 34), .star (.cls (Cls.neg (Cls.ranges [(10, 10), (12, 13), (34, 34)]))), .fin (.cls (Cls.chr 34)) .code]

/-- src/parsers/xaml.rl:61-68
```
  xaml_cdata_str =
    '<![CDATA[' @code (
      newline %{ entity = INTERNAL_NL; } %xaml_ccallback
      |
      ws
      |
      (nonnewline - ws) @code
    )* :>> ']]>';
``` -/
def xaml_cdata_str : Rx := .guard (.seqs [.fin (.lit [60, 33, 91, 67, 68, 65, 84, 65, 91]) .code, .star (.alts [.leave (.leave (Common.newline) (.setEnt .internalNl)) .cb, .cls (Common.ws), .fin (.cls (Cls.diff (Common.nonnewline) (Common.ws))) .code])]) (.lit [93, 93, 62])

/-- src/parsers/xaml.rl:69
```
  xaml_string = xaml_sq_str | xaml_dq_str | xaml_cdata_str;
``` -/
def xaml_string : Rx := .alts [xaml_sq_str, xaml_dq_str, xaml_cdata_str]

/-- src/parsers/xaml.rl:71-77 with the cases of its callback (src/parsers/xaml.rl:31-48).
```
  xaml_line := |*
    spaces       ${ entity = XAML_SPACE; } => xaml_ccallback;
    xaml_comment;
    xaml_string;
    newline      ${ entity = NEWLINE;   } => xaml_ccallback;
    ^space       ${ entity = XAML_ANY;   } => xaml_ccallback;
  *|;
``` -/
def xaml_line : Scanner where
  pats := [
  (.all (Common.spaces) (.setEnt (.own 0)), .cb),
  (xaml_comment, .none),
  (xaml_string, .none),
  (.all (Common.newline) (.setEnt .newline), .cb),
  (.all (.cls (Cls.neg (Common.space))) (.setEnt (.own 5)), .cb)]
  sw := [((.own 0), .ls), ((.own 5), .code), (.internalNl, .internalNewline), (.newline, .newline)]

/-- src/parsers/xaml.rl:85
```
  xaml_comment_entity = '<!--' any* :>> '-->';
``` -/
def xaml_comment_entity : Rx := .guard (.seqs [.lit [60, 33, 45, 45], .star (.cls (Cls.any))]) (.lit [45, 45, 62])

/-- src/parsers/xaml.rl:87-92.
```
  xaml_entity := |*
    space+             ${ entity = XAML_SPACE;   } => xaml_ecallback;
    xaml_comment_entity ${ entity = XAML_COMMENT; } => xaml_ecallback;
    # TODO:
    ^space;
  *|;
``` -/
def xaml_entity : Scanner where
  pats := [
  (.all (.plus (.cls (Common.space))) (.setEnt (.own 0)), .ecb),
  (.all (xaml_comment_entity) (.setEnt (.own 1)), .ecb),
  (.cls (Cls.neg (Common.space)), .none)]
  sw := []

end Ohcount.Gram.Xaml

namespace Ohcount.Gram.Xml
open Ohcount.Ragel

/-- src/parsers/xml.rl:52-59
```
  xml_comment =
    '<!--' @comment (
      newline %{ entity = INTERNAL_NL; } %xml_ccallback
      |
      ws
      |
      (nonnewline - ws) @comment
    )* :>> '-->';
``` -/
def xml_comment : Rx := .guard (.seqs [.fin (.lit [60, 33, 45, 45]) .comment, .star (.alts [.leave (.leave (Common.newline) (.setEnt .internalNl)) .cb, .cls (Common.ws), .fin (.cls (Cls.diff (Common.nonnewline) (Common.ws))) .comment])]) (.lit [45, 45, 62])

/-- src/parsers/xml.rl:61
```
  xml_sq_str = '\'' [^\r\n\f']* '\'' @code;
``` -/
def xml_sq_str : Rx := .seqs [.cls (Cls.chr 39), .star (.cls (Cls.neg (Cls.ranges [(10, 10), (12, 13), (39, 39)]))), .fin (.cls (Cls.chr 39)) .code]

/-- src/parsers/xml.rl:62
```
  xml_dq_str = '"' [^\r\n\f"]* '"' @code;
``` -/
def xml_dq_str : Rx := .seqs [.cls (Cls.chr 34), .star (.cls (Cls.neg (Cls.ranges [(10, 10), (12, 13), (34, 34)]))), .fin (.cls (Cls.chr 34)) .code]

/-- src/parsers/xml.rl:63-70
```
  xml_cdata_str =
    '<![CDATA[' @code (
      newline %{ entity = INTERNAL_NL; } %xml_ccallback
      |
      ws
      |
      (nonnewline - ws) @code
    )* :>> ']]>';
``` -/
def xml_cdata_str : Rx := .guard (.seqs [.fin (.lit [60, 33, 91, 67, 68, 65, 84, 65, 91]) .code, .star (.alts [.leave (.leave (Common.newline) (.setEnt .internalNl)) .cb, .cls (Common.ws), .fin (.cls (Cls.diff (Common.nonnewline) (Common.ws))) .code])]) (.lit [93, 93, 62])

/-- src/parsers/xml.rl:71
```
  xml_string = xml_sq_str | xml_dq_str | xml_cdata_str;
``` -/
def xml_string : Rx := .alts [xml_sq_str, xml_dq_str, xml_cdata_str]

/-- src/parsers/xml.rl:73-79 with the cases of its callback (src/parsers/xml.rl:33-50).
```
  xml_line := |*
    spaces       ${ entity = XML_SPACE; } => xml_ccallback;
    xml_comment;
    xml_string;
    newline      ${ entity = NEWLINE;   } => xml_ccallback;
    ^space       ${ entity = XML_ANY;   } => xml_ccallback;
  *|;
``` -/
def xml_line : Scanner where
  pats := [
  (.all (Common.spaces) (.setEnt (.own 0)), .cb),
  (xml_comment, .none),
  (xml_string, .none),
  (.all (Common.newline) (.setEnt .newline), .cb),
  (.all (.cls (Cls.neg (Common.space))) (.setEnt (.own 5)), .cb)]
  sw := [((.own 0), .ls), ((.own 5), .code), (.internalNl, .internalNewline), (.newline, .newline)]

/-- src/parsers/xml.rl:87
```
  xml_comment_entity = '<!--' any* :>> '-->';
``` -/
def xml_comment_entity : Rx := .guard (.seqs [.lit [60, 33, 45, 45], .star (.cls (Cls.any))]) (.lit [45, 45, 62])

/-- src/parsers/xml.rl:89-94.
```
  xml_entity := |*
    space+             ${ entity = XML_SPACE;   } => xml_ecallback;
    xml_comment_entity ${ entity = XML_COMMENT; } => xml_ecallback;
    # TODO:
    ^space;
  *|;
``` -/
def xml_entity : Scanner where
  pats := [
  (.all (.plus (.cls (Common.space))) (.setEnt (.own 0)), .ecb),
  (.all (xml_comment_entity) (.setEnt (.own 1)), .ecb),
  (.cls (Cls.neg (Common.space)), .none)]
  sw := []

end Ohcount.Gram.Xml

