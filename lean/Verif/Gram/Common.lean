import Verif.Ragel

/-! The definitions of src/parsers/common.rl and the character classes built into Ragel. -/

namespace Ohcount.Gram.Common
open Ohcount.Ragel

/-- Ragel's builtin `digit`. -/
def digit : Cls := Cls.ranges [(48, 57)]

/-- Ragel's builtin `lower`. -/
def lower : Cls := Cls.ranges [(97, 122)]

/-- Ragel's builtin `upper`. -/
def upper : Cls := Cls.ranges [(65, 90)]

/-- Ragel's builtin `alpha`. -/
def alpha : Cls := Cls.ranges [(65, 90), (97, 122)]

/-- Ragel's builtin `alnum`. -/
def alnum : Cls := Cls.ranges [(48, 57), (65, 90), (97, 122)]

/-- Ragel's builtin `space`. -/
def space : Cls := Cls.ranges [(9, 13), (32, 32)]

/-- Ragel's builtin `cntrl`. -/
def cntrl : Cls := Cls.ranges [(0, 31), (127, 127)]

/-- Ragel's builtin `xdigit`. -/
def xdigit : Cls := Cls.ranges [(48, 57), (65, 70), (97, 102)]

/-- Ragel's builtin `ascii`. -/
def ascii : Cls := Cls.ranges [(0, 127)]

/-- Ragel's builtin `punct`. -/
def punct : Cls := Cls.ranges [(33, 47), (58, 64), (91, 96), (123, 126)]

/-- Ragel's builtin `graph`. -/
def graph : Cls := Cls.ranges [(33, 126)]

/-- Ragel's builtin `print`. -/
def print : Cls := Cls.ranges [(32, 126)]

/-- src/parsers/common.rl:7
```
ws = [\t ];
``` -/
def ws : Cls := Cls.chars [9, 32]

/-- src/parsers/common.rl:8
```
spaces = [\t ]+;
``` -/
def spaces : Rx := .plus (.cls (Cls.chars [9, 32]))

/-- src/parsers/common.rl:9
```
newline = ('\r\n' | '\n' | '\f' | '\r' when { p+1 < pe && *(p+1) != '\n' });
``` -/
def newline : Rx := .alts [.lit [13, 10], .cls (Cls.chr 10), .cls (Cls.chr 12), .cond (.cls (Cls.chr 13)) .crAlone]

/-- src/parsers/common.rl:10
```
escaped_newline = '\\' newline;
``` -/
def escaped_newline : Rx := .seqs [.cls (Cls.chr 92), newline]

/-- src/parsers/common.rl:11
```
nonnewline = any - [\r\n\f];
``` -/
def nonnewline : Cls := Cls.diff (Cls.any) (Cls.ranges [(10, 10), (12, 13)])

/-- src/parsers/common.rl:12
```
nonprintable_char = cntrl - [\r\n\f];
``` -/
def nonprintable_char : Cls := Cls.diff (Common.cntrl) (Cls.ranges [(10, 10), (12, 13)])

/-- src/parsers/common.rl:15
```
dec_num = digit+;
``` -/
def dec_num : Rx := .plus (.cls (Common.digit))

/-- src/parsers/common.rl:16
```
hex_num = 0 [xX] [a-fA-F0-9]+;
``` -/
def hex_num : Rx := .seqs [.cls (Cls.chr 0), .cls (Cls.chars [88, 120]), .plus (.cls (Cls.ranges [(48, 57), (65, 70), (97, 102)]))]

/-- src/parsers/common.rl:17
```
oct_num = 0 [0-7]+;
``` -/
def oct_num : Rx := .seqs [.cls (Cls.chr 0), .plus (.cls (Cls.ranges [(48, 55)]))]

/-- src/parsers/common.rl:18
```
integer = [+\-]? (hex_num | oct_num | dec_num);
``` -/
def integer : Rx := .seqs [.opt (.cls (Cls.chars [43, 45])), .alts [hex_num, oct_num, dec_num]]

/-- src/parsers/common.rl:19-20
```
float = [+\-]? ((digit* '.' digit+) | (digit+ '.' digit*) | digit+)
        [eE] [+\-]? digit+;
``` -/
def float : Rx := .seqs [.opt (.cls (Cls.chars [43, 45])), .alts [.seqs [.star (.cls (Common.digit)), .cls (Cls.chr 46), .plus (.cls (Common.digit))], .seqs [.plus (.cls (Common.digit)), .cls (Cls.chr 46), .star (.cls (Common.digit))], .plus (.cls (Common.digit))], .cls (Cls.chars [69, 101]), .opt (.cls (Cls.chars [43, 45])), .plus (.cls (Common.digit))]

/-- src/parsers/common.rl:23
```
sq_str = '\'' [^']* '\'';
``` -/
def sq_str : Rx := .seqs [.cls (Cls.chr 39), .star (.cls (Cls.neg (Cls.chr 39))), .cls (Cls.chr 39)]

/-- src/parsers/common.rl:24
```
dq_str = '"' [^"]* '"';
``` -/
def dq_str : Rx := .seqs [.cls (Cls.chr 34), .star (.cls (Cls.neg (Cls.chr 34))), .cls (Cls.chr 34)]

/-- src/parsers/common.rl:25
```
sq_str_with_escapes = '\'' ([^'\\] | '\\' any)* '\'';
``` -/
def sq_str_with_escapes : Rx := .seqs [.cls (Cls.chr 39), .star (.alts [.cls (Cls.neg (Cls.chars [39, 92])), .seqs [.cls (Cls.chr 92), .cls (Cls.any)]]), .cls (Cls.chr 39)]

/-- src/parsers/common.rl:26
```
dq_str_with_escapes = '"' ([^"\\] | '\\' any)* '"';
``` -/
def dq_str_with_escapes : Rx := .seqs [.cls (Cls.chr 34), .star (.alts [.cls (Cls.neg (Cls.chars [34, 92])), .seqs [.cls (Cls.chr 92), .cls (Cls.any)]]), .cls (Cls.chr 34)]

end Ohcount.Gram.Common
