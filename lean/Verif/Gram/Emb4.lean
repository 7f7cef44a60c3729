import Verif.Gram.Common
import Verif.RagelEmbed

/-! Parsers with embedded languages, transcribed from src/parsers/: perl.rl, haml.rl. Generated by tools/gen_embedded.py. -/

/-! ### perl.rl -/

namespace Ohcount.Gram.Emb.Perl
open Ohcount.Ragel

/-- src/parsers/perl.rl:47
```
  perl_line_comment = '#' @comment nonnewline*;
``` -/
def perl_line_comment : Rx := .seqs [.fin (.cls (Cls.chr 35)) .comment, .star (.cls (Common.nonnewline))]

/-- src/parsers/perl.rl:48-57
```
  perl_block_comment =
    '=' when starts_line @enqueue @comment nonnewline+ (
      '=' when starts_line 'cut' @commit @comment @{ fgoto perl_line; }
      |
      newline %{ entity = INTERNAL_NL; } %perl_ccallback
      |
      ws
      |
      ^space @comment
    )* %/commit;
``` -/
def perl_block_comment : Rx := .leave (.seqs [.fin (.fin (.cond (.cls (Cls.chr 61)) .startsLine) .enqueue) .comment, .plus (.cls (Common.nonnewline)), .star (.alts [.seqs [.cond (.cls (Cls.chr 61)) .startsLine, .fin (.fin (.fin (.lit [99, 117, 116]) .commit) .comment) (.emb (.goto 0))], .leave (.leave (Common.newline) (.setEnt .internalNl)) .cb, .cls (Common.ws), .fin (.cls (Cls.neg (Common.space))) .comment])]) (.emb .eofCommit)

/-- src/parsers/perl.rl:58
```
  perl_comment = perl_line_comment | perl_block_comment;
``` -/
def perl_comment : Rx := .alts [perl_line_comment, perl_block_comment]

/-- src/parsers/perl.rl:60-69
```
  perl_sq_str =
    '\'' @enqueue @code (
      newline %{ entity = INTERNAL_NL; } %perl_ccallback
      |
      ws
      |
      [^\r\n\f\t '\\] @code
      |
      '\\' nonnewline @code
    )* '\'' @commit @code;
``` -/
def perl_sq_str : Rx := .seqs [.fin (.fin (.cls (Cls.chr 39)) .enqueue) .code, .star (.alts [.leave (.leave (Common.newline) (.setEnt .internalNl)) .cb, .cls (Common.ws), .fin (.cls (Cls.neg (Cls.ranges [(9, 10), (12, 13), (32, 32), (39, 39), (92, 92)]))) .code, .seqs [.cls (Cls.chr 92), .fin (.cls (Common.nonnewline)) .code]]), .fin (.fin (.cls (Cls.chr 39)) .commit) .code]

/-- src/parsers/perl.rl:70-79
```
  perl_dq_str =
    '"' @enqueue @code (
      newline %{ entity = INTERNAL_NL; } %perl_ccallback
      |
      ws
      |
      [^\r\n\f\t "\\] @code
      |
      '\\' nonnewline @code
    )* '"' @commit @code;
``` -/
def perl_dq_str : Rx := .seqs [.fin (.fin (.cls (Cls.chr 34)) .enqueue) .code, .star (.alts [.leave (.leave (Common.newline) (.setEnt .internalNl)) .cb, .cls (Common.ws), .fin (.cls (Cls.neg (Cls.ranges [(9, 10), (12, 13), (32, 32), (34, 34), (92, 92)]))) .code, .seqs [.cls (Cls.chr 92), .fin (.cls (Common.nonnewline)) .code]]), .fin (.fin (.cls (Cls.chr 34)) .commit) .code]

/-- src/parsers/perl.rl:80-89
```
  perl_cmd_str =
    '`' @enqueue @code (
      newline %{ entity = INTERNAL_NL; } %perl_ccallback
      |
      ws
      |
      [^\r\n\f\t `\\] @code
      |
      '\\' nonnewline @code
    )* '`' @commit @code;
``` -/
def perl_cmd_str : Rx := .seqs [.fin (.fin (.cls (Cls.chr 96)) .enqueue) .code, .star (.alts [.leave (.leave (Common.newline) (.setEnt .internalNl)) .cb, .cls (Common.ws), .fin (.cls (Cls.neg (Cls.ranges [(9, 10), (12, 13), (32, 32), (92, 92), (96, 96)]))) .code, .seqs [.cls (Cls.chr 92), .fin (.cls (Common.nonnewline)) .code]]), .fin (.fin (.cls (Cls.chr 96)) .commit) .code]

/-- src/parsers/perl.rl:90
```
  perl_regex = '/' ([^\r\n\f/\\] | '\\' nonnewline)* '/' @code;
``` -/
def perl_regex : Rx := .seqs [.cls (Cls.chr 47), .star (.alts [.cls (Cls.neg (Cls.ranges [(10, 10), (12, 13), (47, 47), (92, 92)])), .seqs [.cls (Cls.chr 92), .cls (Common.nonnewline)]]), .fin (.cls (Cls.chr 47)) .code]

/-- src/parsers/perl.rl:95
```
  perl_string = perl_sq_str | perl_dq_str | perl_cmd_str | perl_regex;
``` -/
def perl_string : Rx := .alts [perl_sq_str, perl_dq_str, perl_cmd_str, perl_regex]

/-- Machine 0: src/parsers/perl.rl:97-104.
```
  perl_line := |*
    spaces         ${ entity = PERL_SPACE; } => perl_ccallback;
    perl_comment;
    perl_string;
    newline        ${ entity = NEWLINE;    } => perl_ccallback;
    '=' when !starts_line;
    ^(space | '=') ${ entity = PERL_ANY;   } => perl_ccallback;
  *|;
``` -/
def perl_line : EScanner where
  pats := [
  (.all (Common.spaces) (.setEnt (.own 0)), .cb 0),
  (perl_comment, .none),
  (perl_string, .none),
  (.all (Common.newline) (.setEnt .newline), .cb 0),
  (.cond (.cls (Cls.chr 61)) .midLine, .none),
  (.all (.cls (Cls.neg (Cls.union (Common.space) (Cls.chr 61)))) (.setEnt (.own 3)), .cb 0)]
  scanner := true

/-- src/parsers/perl.rl:112
```
  perl_line_comment_entity = '#' nonnewline*;
``` -/
def perl_line_comment_entity : Rx := .seqs [.cls (Cls.chr 35), .star (.cls (Common.nonnewline))]

/-- src/parsers/perl.rl:113-114
```
  perl_block_comment_entity =
    ('=' when starts_line) alpha+ any* :>> (('=' when starts_line) 'cut');
``` -/
def perl_block_comment_entity : Rx := .guard (.seqs [.cond (.cls (Cls.chr 61)) .startsLine, .plus (.cls (Common.alpha)), .star (.cls (Cls.any))]) (.seqs [.cond (.cls (Cls.chr 61)) .startsLine, .lit [99, 117, 116]])

/-- src/parsers/perl.rl:115
```
  perl_comment_entity = perl_line_comment_entity | perl_block_comment_entity;
``` -/
def perl_comment_entity : Rx := .alts [perl_line_comment_entity, perl_block_comment_entity]

/-- Machine 1: src/parsers/perl.rl:117-122.
```
  perl_entity := |*
    space+              ${ entity = PERL_SPACE;   } => perl_ecallback;
    perl_comment_entity ${ entity = PERL_COMMENT; } => perl_ecallback;
    # TODO:
    ^space;
  *|;
``` -/
def perl_entity : EScanner where
  pats := [
  (.all (.plus (.cls (Common.space))) (.setEnt (.own 0)), .ecb 0),
  (.all (perl_comment_entity) (.setEnt (.own 1)), .ecb 0),
  (.cls (Cls.neg (Common.space)), .none)]
  scanner := true

/-- `parse_perl`, src/parsers/perl.rl:138-151; the callbacks are src/parsers/perl.rl:31-45. -/
def parser : EParser where
  name := "parse_perl"
  langs := ["perl"]
  sws := [
    [((.own 0), .ls), ((.own 3), .code), (.internalNl, .internalNewline), (.newline, .newline)]]
  machs := [perl_line, perl_entity]
  line := 0
  entity := 1

end Ohcount.Gram.Emb.Perl

/-! ### haml.rl -/

namespace Ohcount.Gram.Emb.Haml
open Ohcount.Ragel

/-- src/parsers/haml.rl:129-131
```
  haml_ruby_outry =
    newline %{ entity = INTERNAL_NL;} %haml_ccallback
    any @{fhold;};
``` -/
def haml_ruby_outry : Rx := .seqs [.leave (.leave (Common.newline) (.setEnt .internalNl)) .cb, .fin (.cls (Cls.any)) (.fhold 0)]

/-- src/parsers/ruby.rl:47
```
  ruby_line_comment = '#' @comment nonnewline*;
``` -/
def ruby_line_comment : Rx := .seqs [.fin (.cls (Cls.chr 35)) .comment, .star (.cls (Common.nonnewline))]

/-- src/parsers/ruby.rl:50-57
```
  ruby_block_comment =
    '=begin' @enqueue @comment (
      newline %{ entity = INTERNAL_NL; } %ruby_ccallback
      |
      ws
      |
      (nonnewline - ws) @comment
    )* :>> '=end' @commit;
``` -/
def ruby_block_comment : Rx := .guard (.seqs [.fin (.fin (.lit [61, 98, 101, 103, 105, 110]) .enqueue) .comment, .star (.alts [.leave (.leave (Common.newline) (.setEnt .internalNl)) (.emb (.cb 1)), .cls (Common.ws), .fin (.cls (Cls.diff (Common.nonnewline) (Common.ws))) .comment])]) (.fin (.lit [61, 101, 110, 100]) .commit)

/-- src/parsers/ruby.rl:58
```
  ruby_comment = ruby_line_comment | ruby_block_comment;
``` -/
def ruby_comment : Rx := .alts [ruby_line_comment, ruby_block_comment]

/-- src/parsers/ruby.rl:60-69
```
  ruby_sq_str =
    '\'' @enqueue @code (
      newline %{ entity = INTERNAL_NL; } %ruby_ccallback
      |
      ws
      |
      [^\r\n\f\t '\\] @code
      |
      '\\' nonnewline @code
    )* '\'' @commit @code;
``` -/
def ruby_sq_str : Rx := .seqs [.fin (.fin (.cls (Cls.chr 39)) .enqueue) .code, .star (.alts [.leave (.leave (Common.newline) (.setEnt .internalNl)) (.emb (.cb 1)), .cls (Common.ws), .fin (.cls (Cls.neg (Cls.ranges [(9, 10), (12, 13), (32, 32), (39, 39), (92, 92)]))) .code, .seqs [.cls (Cls.chr 92), .fin (.cls (Common.nonnewline)) .code]]), .fin (.fin (.cls (Cls.chr 39)) .commit) .code]

/-- src/parsers/ruby.rl:70-79
```
  ruby_dq_str =
    '"' @enqueue @code (
      newline %{ entity = INTERNAL_NL; } %ruby_ccallback
      |
      ws
      |
      [^\r\n\f\t "\\] @code
      |
      '\\' nonnewline @code
    )* '"' @commit @code;
``` -/
def ruby_dq_str : Rx := .seqs [.fin (.fin (.cls (Cls.chr 34)) .enqueue) .code, .star (.alts [.leave (.leave (Common.newline) (.setEnt .internalNl)) (.emb (.cb 1)), .cls (Common.ws), .fin (.cls (Cls.neg (Cls.ranges [(9, 10), (12, 13), (32, 32), (34, 34), (92, 92)]))) .code, .seqs [.cls (Cls.chr 92), .fin (.cls (Common.nonnewline)) .code]]), .fin (.fin (.cls (Cls.chr 34)) .commit) .code]

/-- src/parsers/ruby.rl:89-98
```
  ruby_lit_str =
    '%' [qQ]? [(\[{] @enqueue @code (
      newline %{ entity = INTERNAL_NL; } %ruby_ccallback
      |
      ws
      |
      [^\r\n\f\t )\]}\\] @code
      |
      '\\' nonnewline @code
    )* [)\]}] @commit @code;
``` -/
def ruby_lit_str : Rx := .seqs [.cls (Cls.chr 37), .opt (.cls (Cls.chars [81, 113])), .fin (.fin (.cls (Cls.chars [40, 91, 123])) .enqueue) .code, .star (.alts [.leave (.leave (Common.newline) (.setEnt .internalNl)) (.emb (.cb 1)), .cls (Common.ws), .fin (.cls (Cls.neg (Cls.ranges [(9, 10), (12, 13), (32, 32), (41, 41), (92, 93), (125, 125)]))) .code, .seqs [.cls (Cls.chr 92), .fin (.cls (Common.nonnewline)) .code]]), .fin (.fin (.cls (Cls.chars [41, 93, 125])) .commit) .code]

/-- src/parsers/ruby.rl:99-108
```
  ruby_cmd_str =
    '`' @enqueue @code (
      newline %{ entity = INTERNAL_NL; } %ruby_ccallback
      |
      ws
      |
      [^\r\n\f\t `\\] @code
      |
      '\\' nonnewline @code
    )* '`' @commit @code;
``` -/
def ruby_cmd_str : Rx := .seqs [.fin (.fin (.cls (Cls.chr 96)) .enqueue) .code, .star (.alts [.leave (.leave (Common.newline) (.setEnt .internalNl)) (.emb (.cb 1)), .cls (Common.ws), .fin (.cls (Cls.neg (Cls.ranges [(9, 10), (12, 13), (32, 32), (92, 92), (96, 96)]))) .code, .seqs [.cls (Cls.chr 92), .fin (.cls (Common.nonnewline)) .code]]), .fin (.fin (.cls (Cls.chr 96)) .commit) .code]

/-- src/parsers/ruby.rl:109
```
  ruby_regex = '/' ([^\r\n\f/\\] | '\\' nonnewline)* '/' @code;
``` -/
def ruby_regex : Rx := .seqs [.cls (Cls.chr 47), .star (.alts [.cls (Cls.neg (Cls.ranges [(10, 10), (12, 13), (47, 47), (92, 92)])), .seqs [.cls (Cls.chr 92), .cls (Common.nonnewline)]]), .fin (.cls (Cls.chr 47)) .code]

/-- src/parsers/ruby.rl:112-121
```
  ruby_lit_other =
    '%' [wrx] [(\[{] @enqueue @code (
      newline %{ entity = INTERNAL_NL; } %ruby_ccallback
      |
      ws
      |
      [^\r\n\f\t )\]}\\] @code
      |
      '\\' nonnewline @code
    )* [)\]}] @commit @code;
``` -/
def ruby_lit_other : Rx := .seqs [.cls (Cls.chr 37), .cls (Cls.ranges [(114, 114), (119, 120)]), .fin (.fin (.cls (Cls.chars [40, 91, 123])) .enqueue) .code, .star (.alts [.leave (.leave (Common.newline) (.setEnt .internalNl)) (.emb (.cb 1)), .cls (Common.ws), .fin (.cls (Cls.neg (Cls.ranges [(9, 10), (12, 13), (32, 32), (41, 41), (92, 93), (125, 125)]))) .code, .seqs [.cls (Cls.chr 92), .fin (.cls (Common.nonnewline)) .code]]), .fin (.fin (.cls (Cls.chars [41, 93, 125])) .commit) .code]

/-- src/parsers/ruby.rl:126-128
```
  ruby_string =
    ruby_sq_str | ruby_dq_str | ruby_lit_str | ruby_cmd_str | ruby_regex |
    ruby_lit_other;
``` -/
def ruby_string : Rx := .alts [ruby_sq_str, ruby_dq_str, ruby_lit_str, ruby_cmd_str, ruby_regex, ruby_lit_other]

/-- Machine 0: src/parsers/haml.rl:133-140.
```
  haml_ruby_line := |*
    haml_ruby_outry @{ p = ts; fret; };
    spaces        ${ entity = RUBY_SPACE; } => ruby_ccallback;
    ruby_comment;
    ruby_string;
    newline       ${ entity = NEWLINE;    } => ruby_ccallback;
    ^space        ${ entity = RUBY_ANY;   } => ruby_ccallback;
  *|;
``` -/
def haml_ruby_line : EScanner where
  pats := [
  (.fin (haml_ruby_outry) (.emb .back), .none),
  (.all (Common.spaces) (.setEnt (.own 0)), .cb 1),
  (ruby_comment, .none),
  (ruby_string, .none),
  (.all (Common.newline) (.setEnt .newline), .cb 1),
  (.all (.cls (Cls.neg (Common.space))) (.setEnt (.own 3)), .cb 1)]
  scanner := true

/-- src/parsers/haml.rl:66
```
  haml_ruby_evaluator = "==" | ([&!]? "=") | "-"  | "~";
``` -/
def haml_ruby_evaluator : Rx := .alts [.lit [61, 61], .seqs [.opt (.cls (Cls.chars [33, 38])), .cls (Cls.chr 61)], .cls (Cls.chr 45), .cls (Cls.chr 126)]

/-- src/parsers/haml.rl:69-92
```
  haml_xhtml_tag_modifier =
    ('{' >bracket_level_res @code (
      newline %{ entity = INTERNAL_NL; } %haml_ccallback
      |
      ws
      |
      (nonnewline - ws - [{}]) @code
      |
      '{' @bracket_inc
      |
      '}' @bracket_dec
    )* :>> ('}' when { bracket_level == 0 }) @code)
    |
    ('[' >bracket_level_res @code (
      newline %{ entity = INTERNAL_NL; } %haml_ccallback
      |
      ws
      |
      '[' @bracket_inc
      |
      ']' @bracket_dec
      |
      (nonnewline - ws - '[' - ']') @code
    )* :>> (']' when { bracket_level == 0 }) @code);
``` -/
def haml_xhtml_tag_modifier : Rx := .alts [.guard (.seqs [.fin (.ent (.cls (Cls.chr 123)) .nestRes) .code, .star (.alts [.leave (.leave (Common.newline) (.setEnt .internalNl)) .cb, .cls (Common.ws), .fin (.cls (Cls.diff (Cls.diff (Common.nonnewline) (Common.ws)) (Cls.chars [123, 125]))) .code, .fin (.cls (Cls.chr 123)) .nestInc, .fin (.cls (Cls.chr 125)) .nestDec])]) (.fin (.cond (.cls (Cls.chr 125)) .nestZero) .code), .guard (.seqs [.fin (.ent (.cls (Cls.chr 91)) .nestRes) .code, .star (.alts [.leave (.leave (Common.newline) (.setEnt .internalNl)) .cb, .cls (Common.ws), .fin (.cls (Cls.chr 91)) .nestInc, .fin (.cls (Cls.chr 93)) .nestDec, .fin (.cls (Cls.diff (Cls.diff (Cls.diff (Common.nonnewline) (Common.ws)) (Cls.chr 91)) (Cls.chr 93))) .code])]) (.fin (.cond (.cls (Cls.chr 93)) .nestZero) .code)]

/-- src/parsers/haml.rl:94
```
  haml_xhtml_tag = "%" ((nonnewline-ws-'['-'{')+ - haml_ruby_evaluator) haml_xhtml_tag_modifier? '//'?;
``` -/
def haml_xhtml_tag : Rx := .seqs [.cls (Cls.chr 37), .alts [.seqs [.cls (Cls.neg (Cls.ranges [(9, 10), (12, 13), (32, 33), (38, 38), (45, 45), (61, 61), (91, 91), (123, 123), (126, 126)])), .star (.cls (Cls.neg (Cls.ranges [(9, 10), (12, 13), (32, 32), (91, 91), (123, 123)])))], .seqs [.cls (Cls.chr 33), .opt (.alts [.seqs [.cls (Cls.neg (Cls.ranges [(9, 10), (12, 13), (32, 32), (61, 61), (91, 91), (123, 123)])), .star (.cls (Cls.neg (Cls.ranges [(9, 10), (12, 13), (32, 32), (91, 91), (123, 123)])))], .seqs [.cls (Cls.chr 61), .plus (.cls (Cls.neg (Cls.ranges [(9, 10), (12, 13), (32, 32), (91, 91), (123, 123)])))]])], .seqs [.cls (Cls.chr 38), .opt (.alts [.seqs [.cls (Cls.neg (Cls.ranges [(9, 10), (12, 13), (32, 32), (61, 61), (91, 91), (123, 123)])), .star (.cls (Cls.neg (Cls.ranges [(9, 10), (12, 13), (32, 32), (91, 91), (123, 123)])))], .seqs [.cls (Cls.chr 61), .plus (.cls (Cls.neg (Cls.ranges [(9, 10), (12, 13), (32, 32), (91, 91), (123, 123)])))]])], .seqs [.cls (Cls.chr 45), .plus (.cls (Cls.neg (Cls.ranges [(9, 10), (12, 13), (32, 32), (91, 91), (123, 123)])))], .seqs [.cls (Cls.chr 61), .alts [.seqs [.cls (Cls.neg (Cls.ranges [(9, 10), (12, 13), (32, 32), (61, 61), (91, 91), (123, 123)])), .star (.cls (Cls.neg (Cls.ranges [(9, 10), (12, 13), (32, 32), (91, 91), (123, 123)])))], .seqs [.cls (Cls.chr 61), .plus (.cls (Cls.neg (Cls.ranges [(9, 10), (12, 13), (32, 32), (91, 91), (123, 123)])))]]], .seqs [.cls (Cls.chr 126), .plus (.cls (Cls.neg (Cls.ranges [(9, 10), (12, 13), (32, 32), (91, 91), (123, 123)])))]], .opt (haml_xhtml_tag_modifier), .opt (.lit [47, 47])]

/-- src/parsers/haml.rl:124-127
```
  haml_ruby_entry =
    ([ ]{2})*
    haml_xhtml_tag{,1}
    haml_ruby_evaluator ws @code;
``` -/
def haml_ruby_entry : Rx := .seqs [.star (.lit [32, 32]), .opt (haml_xhtml_tag), haml_ruby_evaluator, .fin (.cls (Common.ws)) .code]

/-- src/parsers/haml.rl:62
```
  haml_indent = ([ ]{2}) @haml_indent_level_inc;
``` -/
def haml_indent : Rx := .fin (.lit [32, 32]) (.emb .indInc)

/-- src/parsers/haml.rl:63
```
  haml_indent_init = ([ ]{2} >haml_indent_level_res @haml_indent_level_inc)? haml_indent*;
``` -/
def haml_indent_init : Rx := .seqs [.opt (.fin (.ent (.lit [32, 32]) (.emb .indRes)) (.emb .indInc)), .star (haml_indent)]

/-- src/parsers/haml.rl:67
```
  haml_comment_delimiter = ("-#" | "/");
``` -/
def haml_comment_delimiter : Rx := .alts [.lit [45, 35], .cls (Cls.chr 47)]

/-- src/parsers/haml.rl:64
```
  haml_eol = newline >haml_indent_level_res;
``` -/
def haml_eol : Rx := .ent (Common.newline) (.emb .indRes)

/-- src/parsers/haml.rl:96-100
```
  haml_block_line_transition =
    haml_eol %{ entity = INTERNAL_NL;} %haml_ccallback
    ( newline %{ entity = INTERNAL_NL; } %haml_ccallback )*
    ( [ ]{2} when {current_indent_level < prior_indent_level} @haml_indent_level_inc )*
    ( [ ]{2} when {current_indent_level >= prior_indent_level} @haml_indent_level_inc)+;
``` -/
def haml_block_line_transition : Rx := .seqs [.leave (.leave (haml_eol) (.setEnt .internalNl)) .cb, .star (.leave (.leave (Common.newline) (.setEnt .internalNl)) .cb), .star (.fin (.cond (.lit [32, 32]) .indLt) (.emb .indInc)), .plus (.fin (.cond (.lit [32, 32]) .indGe) (.emb .indInc))]

/-- src/parsers/haml.rl:102-109
```
  haml_block_comment =
    haml_indent_init haml_comment_delimiter >haml_indent_level_set @comment (
      haml_block_line_transition
      |
      ws
      |
      (nonnewline-ws) @comment
    )*;
``` -/
def haml_block_comment : Rx := .seqs [haml_indent_init, .fin (.ent (haml_comment_delimiter) (.emb .indSet)) .comment, .star (.alts [haml_block_line_transition, .cls (Common.ws), .fin (.cls (Cls.diff (Common.nonnewline) (Common.ws))) .comment])]

/-- src/parsers/haml.rl:111
```
  haml_comment = haml_block_comment;
``` -/
def haml_comment : Rx := haml_block_comment

/-- src/parsers/haml.rl:113-122
```
  haml_string =
    haml_indent*
    (nonnewline
      - haml_comment_delimiter
      - haml_ruby_evaluator
      - "."
      - "#"
      - "%"
      - [ ]) @code
    (nonnewline @code | ("|" @code newline %{ entity = INTERNAL_NL;}))*;
``` -/
def haml_string : Rx := .seqs [.star (haml_indent), .fin (.cls (Cls.diff (Cls.diff (Cls.diff (Cls.diff (Cls.diff (Cls.diff (Common.nonnewline) (Cls.chr 47)) (Cls.chars [45, 61, 126])) (Cls.chr 46)) (Cls.chr 35)) (Cls.chr 37)) (Cls.chr 32))) .code, .star (.alts [.fin (.cls (Common.nonnewline)) .code, .seqs [.fin (.cls (Cls.chr 124)) .code, .leave (Common.newline) (.setEnt .internalNl)]])]

/-- Machine 1: src/parsers/haml.rl:142-149.
```
  haml_line := |*
    haml_ruby_entry @{entity = CHECK_BLANK_ENTRY; } @{saw(RUBY_LANG)} => {fcall haml_ruby_line; };
    spaces          ${ entity = HAML_SPACE; } => haml_ccallback;
    haml_comment;
    haml_string;
    newline         ${ entity = NEWLINE;    } => haml_ccallback;
    ^space          ${ entity = HAML_ANY;   } => haml_ccallback;
  *|;
``` -/
def haml_line : EScanner where
  pats := [
  (.fin (.fin (haml_ruby_entry) (.setEnt .checkBlank)) (.emb (.saw 1)), .call 0),
  (.all (Common.spaces) (.setEnt (.own 0)), .cb 0),
  (haml_comment, .none),
  (haml_string, .none),
  (.all (Common.newline) (.setEnt .newline), .cb 0),
  (.all (.cls (Cls.neg (Common.space))) (.setEnt (.own 7)), .cb 0)]
  scanner := true

/-- src/parsers/haml.rl:157
```
  haml_element_entity = '%' alnum+;
``` -/
def haml_element_entity : Rx := .seqs [.cls (Cls.chr 37), .plus (.cls (Common.alnum))]

/-- src/parsers/haml.rl:158
```
  haml_element_class_entity = '.' alnum+;
``` -/
def haml_element_class_entity : Rx := .seqs [.cls (Cls.chr 46), .plus (.cls (Common.alnum))]

/-- src/parsers/haml.rl:159
```
  haml_element_id_entity = '#' alnum+;
``` -/
def haml_element_id_entity : Rx := .seqs [.cls (Cls.chr 35), .plus (.cls (Common.alnum))]

/-- src/parsers/haml.rl:170
```
  haml_evaluator_entity = haml_ruby_evaluator;
``` -/
def haml_evaluator_entity : Rx := haml_ruby_evaluator

/-- src/parsers/haml.rl:161-168
```
  haml_string_entity = (nonnewline
      - haml_comment_delimiter
      - haml_ruby_evaluator
      - "."
      - "#"
      - "%"
      - [ ])
    (nonnewline | ("|" newline))*;
``` -/
def haml_string_entity : Rx := .seqs [.cls (Cls.diff (Cls.diff (Cls.diff (Cls.diff (Cls.diff (Cls.diff (Common.nonnewline) (Cls.chr 47)) (Cls.chars [45, 61, 126])) (Cls.chr 46)) (Cls.chr 35)) (Cls.chr 37)) (Cls.chr 32)), .star (.alts [.cls (Common.nonnewline), .seqs [.cls (Cls.chr 124), Common.newline]])]

/-- Machine 2: src/parsers/haml.rl:174-182.
```
  haml_entity := |*
    space+                     ${ entity = HAML_SPACE;          }  => haml_ecallback;
    haml_element_entity        ${ entity = HAML_ELEMENT;        }  => haml_ecallback;
    haml_element_class_entity  ${ entity = HAML_ELEMENT_CLASS;  }  => haml_ecallback;
    haml_element_id_entity     ${ entity = HAML_ELEMENT_ID;     }  => haml_ecallback;
    haml_evaluator_entity      ${ entity = HAML_EVALUATOR;      }  => haml_ecallback;
    haml_string_entity         ${ entity = HAML_STRING;         }  => haml_ecallback;
    ^space                     ${ entity = HAML_ANY;            }  => haml_ecallback;
  *|;
``` -/
def haml_entity : EScanner where
  pats := [
  (.all (.plus (.cls (Common.space))) (.setEnt (.own 0)), .ecb 0),
  (.all (haml_element_entity) (.setEnt (.own 3)), .ecb 0),
  (.all (haml_element_class_entity) (.setEnt (.own 4)), .ecb 0),
  (.all (haml_element_id_entity) (.setEnt (.own 5)), .ecb 0),
  (.all (haml_evaluator_entity) (.setEnt (.own 6)), .ecb 0),
  (.all (haml_string_entity) (.setEnt (.own 2)), .ecb 0),
  (.all (.cls (Cls.neg (Common.space))) (.setEnt (.own 7)), .ecb 0)]
  scanner := true

/-- `parse_haml`, src/parsers/haml.rl:198-215; the callbacks are src/parsers/haml.rl:36-53, src/parsers/ruby.rl:31-45. -/
def parser : EParser where
  name := "parse_haml"
  langs := ["haml", "ruby"]
  sws := [
    [((.own 0), .ls), ((.own 7), .code), (.internalNl, .embInternalNewline), (.newline, .embNewline), (.checkBlank, .checkBlank)],
    [((.own 0), .ls), ((.own 3), .code), (.internalNl, .internalNewline), (.newline, .newline)]]
  machs := [haml_ruby_line, haml_line, haml_entity]
  line := 1
  entity := 2

end Ohcount.Gram.Emb.Haml

